import Verif.Py.Basic
import Verif.Py.Frame

/-!
# Upwelling-diffusion energy balance model: `thermal_model/upwelling_diffusion_model.py`

Line numbers refer to that file. Arrays over the ocean layers are functions of the layer number, of
which the first `lm` entries matter. The tridiagonal solver is SciPy's (`scipy.linalg.solve_banded`)
and a parameter here (`Solver`); what is assumed of it is stated in `Verif/Spec/Tridiag.lean`.

Simplifications: divisions by zero inside the yearly step (NumPy gives infinities or NaN) use the
total division of the number type; the constructor's divisions of plain Python numbers raise. (The same division
repeated in `set_feedback_gregory` with plain Python numbers would raise too; there it is total.)
`templ`, `prev_values["dtemp"]`, `dtempprev` are written but never read and are left out.
-/

namespace Verif.Model.UDM
open Verif.Py

/-- lines 111-132 `thermal_model_required_pamset`. -/
structure Pams (F : Type) where
  rlamdo : F
  akapa : F
  cpi : F
  W : F
  beto : F
  threstemp : F
  lambda : F
  mixed : F
  foan : F
  foas : F
  ebbeta : F
  lm : Nat
  ldtime : Int
  ocean_efficacy : F
  delta_lambda_aero : F

/-- `scipy.linalg.solve_banded((1, 1), [c, b, a], d)` as called by `_band`, lines 17-37: number of
layers, then `a`, `b`, `c`, `d`. A singular matrix raises. -/
abbrev Solver (F : Type) :=
  Nat → (Nat → F) → (Nat → F) → (Nat → F) → (Nat → F) → Except PyErr (Nat → F)

/-- A tridiagonal coefficient triple. -/
structure Coeffs (F : Type) where
  a : Nat → F
  b : Nat → F
  c : Nat → F

/-- `self.varrying`. -/
structure Varying (F : Type) where
  north : Coeffs F
  dtrm1n : F
  dtmnl2 : F
  south : Coeffs F
  dtrm1s : F
  dtmsl2 : F
  dtrm2n : F
  dtrm3n : F
  dtrm4n : F
  dtrm2s : F
  dtrm3s : F
  dtrm4s : F
  dtmnl3 : F
  dtmnl1 : F
  dtmsl3 : F
  dtmsl1 : F

/-- The attributes of the model object. `p` are the parameters that never change; `rlamda`, `fnx`,
`fsx` are the entries of `self.pamset` that `set_feedback_gregory` overwrites. -/
structure Model (F : Type) where
  p : Pams F
  rlamda : F
  fnx : F
  fsx : F
  gamn : F
  gams : F
  v : Varying F
  tn : Nat → F
  ts : Nat → F
  prevFn : F
  prevFs : F

section
variable {F : Type} [Add F] [Sub F] [Mul F] [Div F] [Neg F] [OfScientific F] [LT F] [DecidableLT F]
  [MathFn F]

/-- constants.py: `SEC_DAY * DAY_YEAR`. -/
def secYear : F := 86400.0 * 365.0

/-- line 58 `rakapa`. -/
def rakapa (p : Pams F) : F := 1.0e-4 * p.akapa
/-- line 60 `dt`. -/
def dt (p : Pams F) : F := 1.0 / ofInt p.ldtime * 86400.0 * 365.0
/-- lines 61-64 `c1`. -/
def c1 : F := 1.03 * 0.955 * 0.485 * 100.0 * 86400.0
/-- line 71 `fnso`. -/
def fnso (p : Pams F) : F := p.foan / p.foas
/-- lines 167-168 `self.dz`. -/
def dz (p : Pams F) (i : Nat) : F := if i = 0 then p.mixed else 100.0
/-- lines 65-67 and 210-214 `fnx` for a feedback `rl`. -/
def fnxOf (p : Pams F) (rl : F) : F := rl + p.foan * p.rlamdo + p.ebbeta
/-- lines 68-70 and 215-219 `fsx`. -/
def fsxOf (p : Pams F) (rl : F) : F := rl + p.foas * p.rlamdo + p.ebbeta
/-- lines 241 and 410 `blm`. -/
def blm (p : Pams F) : F := p.ebbeta / p.rlamdo

/-- lines 222-256 `get_gam_and_fro_factor_ns`. -/
def gamFroFactor (m : Model F) (northern : Bool) : F :=
  let gam1 := if northern then m.gamn else m.gams
  let gam2 := if northern then m.gams else m.gamn
  let fro1 := if northern then m.p.foan else m.p.foas
  m.p.rlamdo * (1.0 - fro1 * gam2 / (gam2 * gam1 - blm m.p * blm m.p)) * dt m.p / (c1 * dz m.p 0)

/-- line 284 `rakapafac`. -/
def rakapafac (p : Pams F) : F := 2.0 * rakapa p * dt p

/-- lines 286-288 and 292-295: the array `c` (coupling to the layer below, stored one column to the
right). -/
def coeffC (p : Pams F) (wcfac : F) (i : Nat) : F :=
  if i = 1 then -rakapafac p / (dz p 0 * (0.0 * dz p 0 + dz p 1))
  else if 2 ≤ i ∧ i < p.lm then
    -rakapafac p / (dz p (i - 1) * (dz p (i - 1) + dz p i)) - wcfac / dz p (i - 1)
  else 0.0

/-- lines 290-291: the array `a` (coupling to the layer above, stored one column to the left). -/
def coeffA (p : Pams F) (wcfac : F) (i : Nat) : F :=
  if i = 0 then -rakapafac p / (dz p 1 * dz p 1) + wcfac / dz p 1
  else if i < p.lm - 1 then -rakapafac p / (dz p (i + 1) * (dz p i + dz p (i + 1)))
  else 0.0

/-- lines 289, 296-299: the diagonal `b`. -/
def coeffB (p : Pams F) (wcfac gamFroFac : F) (i : Nat) : F :=
  if i = 0 then 1.0 - coeffC p wcfac 1 + gamFroFac - wcfac / dz p 0
  else if i < p.lm - 1 then 1.0 - coeffA p wcfac (i - 1) - coeffC p wcfac (i + 1)
  else if i = p.lm - 1 then 1.0 - coeffA p wcfac (p.lm - 2) + wcfac / dz p (p.lm - 1)
  else 0.0

/-- lines 258-300 `coeff`. -/
def coeff (p : Pams F) (wcfac gamFroFac : F) : Coeffs F :=
  ⟨coeffA p wcfac, coeffB p wcfac gamFroFac, coeffC p wcfac⟩

/-- lines 332-343 and 376-380: the ocean efficacy enters the first row only. -/
def withEfficacy (e : F) (k : Coeffs F) : Coeffs F :=
  if !(isEq e 1.0) then
    let c_eff := k.c 1 * e
    { k with c := fun i => if i = 1 then c_eff else k.c i
             b := fun i => if i = 0 then k.b 0 + k.c 1 - c_eff else k.b i }
  else k

/-- lines 319-327 and 363-371: the upwelling factor for a surface temperature. -/
def wcfac (p : Pams F) (temp1 : F) : F :=
  if isEq p.threstemp 0.0 then p.W / secYear * dt p
  else p.W / secYear * (1.0 - 0.3 * temp1 / p.threstemp) * dt p

/-- lines 302-398 `setup_ebud2`. -/
def setupEbud2 (m : Model F) (temp1n temp1s : F) : Model F :=
  let wn := wcfac m.p temp1n
  let ws := wcfac m.p temp1s
  { m with v := { m.v with
      north := withEfficacy m.p.ocean_efficacy (coeff m.p wn (gamFroFactor m true))
      dtrm1n := 1.0 - m.p.cpi * wn / dz m.p 0 - m.p.beto * dt m.p / (c1 * dz m.p 0)
      dtmnl2 := wn * m.p.cpi / dz m.p (m.p.lm - 1)
      south := withEfficacy m.p.ocean_efficacy (coeff m.p ws (gamFroFactor m false))
      dtrm1s := 1.0 - m.p.cpi * ws / dz m.p 0 - fnso m.p * m.p.beto * dt m.p / (c1 * dz m.p 0)
      dtmsl2 := ws * m.p.cpi / dz m.p (m.p.lm - 1) } }

/-- The denominator `gams * gamn - fnsa * blm**2` of lines 400-455 (`fnsa = 1.0`). -/
def denom (p : Pams F) (gamn gams : F) : F := gams * gamn - 1.0 * (blm p * blm p)

/-- lines 400-455 `setup_ebud`. -/
def setupEbud (m : Model F) : Model F :=
  let c1fac := dt m.p / (c1 * dz m.p 0)
  let gamn := m.p.foan + m.rlamda / m.p.rlamdo + blm m.p
  let gams := m.p.foas + m.rlamda / m.p.rlamdo + 1.0 * blm m.p
  let d := denom m.p gamn gams
  let dtmnl3 := dt m.p * m.p.beto / (c1 * dz m.p (m.p.lm - 1))
  let dtmsl3 := fnso m.p * dtmnl3
  setupEbud2
    { m with
      gamn := gamn
      gams := gams
      v := { m.v with
        dtrm2n := (m.p.beto + m.p.foas * m.p.ebbeta / d) * c1fac
        dtrm3n := gams / d * c1fac
        dtrm4n := blm m.p / d * c1fac
        dtrm2s := (fnso m.p * m.p.beto + m.p.foan * 1.0 * m.p.ebbeta / d) * c1fac
        dtrm3s := gamn / d * c1fac
        dtrm4s := 1.0 * blm m.p / d * c1fac
        dtmnl3 := dtmnl3
        dtmnl1 := 1.0 - dtmnl3
        dtmsl3 := dtmsl3
        dtmsl1 := 1.0 - dtmsl3 } }
    0.0 0.0

/-- An empty `self.varrying` (every entry is set by `setup_ebud`). -/
def noVarying : Varying F :=
  let z : Coeffs F := ⟨fun _ => 0.0, fun _ => 0.0, fun _ => 0.0⟩
  ⟨z, 0.0, 0.0, z, 0.0, 0.0, 0.0, 0.0, 0.0, 0.0, 0.0, 0.0, 0.0, 0.0, 0.0, 0.0⟩

/-- lines 151-182 the object after `__init__`, for parameters that pass its checks. -/
def init (p : Pams F) : Model F :=
  setupEbud
    { p := p, rlamda := 1.0 / p.lambda, fnx := fnxOf p (1.0 / p.lambda),
      fsx := fsxOf p (1.0 / p.lambda), gamn := 0.0, gams := 0.0, v := noVarying,
      tn := fun _ => 0.0, ts := fun _ => 0.0, prevFn := 0.0, prevFs := 0.0 }

/-- lines 151-182 `__init__` with `check_pamset` (lines 40-72): divisions of Python numbers by zero
raise, fewer than two layers are an `IndexError`. -/
def create (p : Pams F) : Except PyErr (Model F) :=
  if isEq p.lambda 0.0 || p.ldtime == 0 || isEq p.foas 0.0 || isEq p.rlamdo 0.0 then
    .error .zeroDivision
  else if p.lm < 2 then .error .indexError
  else if isEq (denom p (init p).gamn (init p).gams) 0.0 then .error .zeroDivision
  else .ok (init p)

/-- lines 195-220 `set_feedback_gregory`. -/
def setFeedback (m : Model F) (w_aero : F) : Model F :=
  if isEq m.p.delta_lambda_aero 0.0 then m
  else
    let lambda_eff := 1.0 / m.p.lambda + w_aero * m.p.delta_lambda_aero
    setupEbud { m with rlamda := lambda_eff, fnx := fnxOf m.p lambda_eff, fsx := fsxOf m.p lambda_eff }

/-- lines 516-525: the forcing applied at sub-step `im` of `ldtime`. -/
def rampForcing (ldtime : Int) (im : Nat) (forc prev volc : F) : F :=
  let dtyear := 1.0 / ofInt ldtime
  ofInt (im + 1) * forc * dtyear + (1.0 - ofInt (im + 1) * dtyear) * prev + volc

/-- The right-hand sides `dn` and `ds`, lines 526-558. -/
def rhsNorth (m : Model F) (dqn dqs : F) (i : Nat) : F :=
  if i = 0 then m.v.dtrm1n * m.tn 0 + m.v.dtrm2n * m.ts 0 + m.v.dtrm3n * dqn + m.v.dtrm4n * dqs
  else if i = m.p.lm - 1 then
    m.v.dtmnl1 * m.tn (m.p.lm - 1) + m.v.dtmnl2 * m.tn 0 + m.v.dtmnl3 * m.ts (m.p.lm - 1)
  else if i < m.p.lm then
    m.tn i + m.p.beto * dt m.p / (c1 * dz m.p i) * (m.ts i - m.tn i)
  else 0.0

/-- See `rhsNorth`. -/
def rhsSouth (m : Model F) (dqn dqs : F) (i : Nat) : F :=
  if i = 0 then m.v.dtrm1s * m.ts 0 + m.v.dtrm2s * m.tn 0 + m.v.dtrm3s * dqs + m.v.dtrm4s * dqn
  else if i = m.p.lm - 1 then
    m.v.dtmsl1 * m.ts (m.p.lm - 1) + m.v.dtmsl2 * m.ts 0 + m.v.dtmsl3 * m.tn (m.p.lm - 1)
  else if i < m.p.lm then
    m.ts i + fnso m.p * m.p.beto * dt m.p / (c1 * dz m.p i) * (m.tn i - m.ts i)
  else 0.0

/-- lines 583-592: northern air temperature. -/
def airNorth (m : Model F) (dqn dqs temp1n temp1s : F) : F :=
  (dqn + m.p.foan * m.p.rlamdo * temp1n
      + m.p.ebbeta * (dqs + m.p.foas * m.p.rlamdo * temp1s) / m.fsx)
    / (m.fnx - m.p.ebbeta * m.p.ebbeta / m.fsx)

/-- lines 593-602: southern air temperature. -/
def airSouth (m : Model F) (dqn dqs temp1n temp1s : F) : F :=
  (dqs + m.p.foas * m.p.rlamdo * temp1s
      + m.p.ebbeta * (dqn + m.p.foan * m.p.rlamdo * temp1n) / m.fnx)
    / (m.fsx - m.p.ebbeta * m.p.ebbeta / m.fnx)

/-- The variables of `energy_budget` carried through the sub-steps, lines 496-504. -/
structure Acc (F : Type) where
  temp1n : F
  temp1s : F
  tempn : F
  temps : F
  tempn_air : F
  temps_air : F
  tempn_sea : F
  temps_sea : F

/-- lines 496-504. -/
def Acc.zero : Acc F := ⟨0.0, 0.0, 0.0, 0.0, 0.0, 0.0, 0.0, 0.0⟩

/-- One entry of a volcanic series: `fn_volc[im % len(fn_volc)]`, `ZeroDivisionError` for an empty
northern series. -/
def volcAt (vn : List F) (series : List F) (im : Nat) : Except PyErr F :=
  if vn.length = 0 then .error .zeroDivision
  else match series[im % vn.length]? with
    | some x => .ok x
    | none => .error .indexError

/-- lines 513-514: the coefficients of the sub-step. -/
def refresh (m : Model F) (temp1n temp1s : F) : Model F :=
  if !(isEq m.p.threstemp 0.0) then setupEbud2 m temp1n temp1s else m

/-- lines 603-615: the yearly means. -/
def accumulate (m : Model F) (s : Acc F) (dqn dqs temp1n temp1s : F) : Acc F :=
  let n : F := ofInt m.p.ldtime
  let tempan := airNorth m dqn dqs temp1n temp1s
  let tempas := airSouth m dqn dqs temp1n temp1s
  let tmpn := m.p.foan * temp1n + (1.0 - m.p.foan) * tempan
  let tmps := m.p.foas * temp1s + (1.0 - m.p.foas) * tempas
  { temp1n := temp1n, temp1s := temp1s
    tempn := s.tempn + tmpn / n, temps := s.temps + tmps / n
    tempn_air := s.tempn_air + tempan / n, temps_air := s.temps_air + tempas / n
    tempn_sea := s.tempn_sea + temp1n / n, temps_sea := s.temps_sea + temp1s / n }

/-- lines 511-615: one sub-step. -/
def subStep (solve : Solver F) (fn fs : F) (vn vs : List F) (st : Model F × Acc F) (im : Nat) :
    Except PyErr (Model F × Acc F) := do
  let volcN ← volcAt vn vn im
  let m := refresh st.1 st.2.temp1n st.2.temp1s
  let dqn := rampForcing m.p.ldtime im fn m.prevFn volcN
  let volcS ← volcAt vn vs im
  let dqs := rampForcing m.p.ldtime im fs m.prevFs volcS
  let tn ← solve m.p.lm m.v.north.a m.v.north.b m.v.north.c (rhsNorth m dqn dqs)
  let ts ← solve m.p.lm m.v.south.a m.v.south.b m.v.south.c (rhsSouth m dqn dqs)
  return ({ m with tn := tn, ts := ts }, accumulate m st.2 dqn dqs (tn 0) (ts 0))

/-- `np.mean`. -/
def mean (xs : List F) : F := fsum xs / ofInt xs.length

/-- lines 664-713 `_calculate_anomalous_radiation` (`WATER_HEAT_CAPACITY = 4184`,
`WATER_DENSITY = 1000`, constants.py). -/
def anomalousRadiation (m : Model F) (tn0 ts0 : Nat → F) : F :=
  let profile := fun i => 4184.0 * 1000.0 * dz m.p i
    * ((m.tn i - tn0 i) * m.p.foan + (m.ts i - ts0 i) * m.p.foas)
  (m.p.ocean_efficacy - 1.0)
    * (fsum ((List.range (m.p.lm - 1)).map (fun i => profile (i + 1))) / (365.0 * 86400.0))

/-- `l[i]` for an array: negative indices count from the end. -/
def pyIndex {α : Type} (l : List α) (i : Int) : Except PyErr α :=
  match l[(if i < 0 then (l.length : Int) + i else i).toNat]? with
  | some x => if (l.length : Int) + i < 0 then .error .indexError else .ok x
  | none => .error .indexError

/-- lines 727-738 `havtemp`. -/
def havtemp (m : Model F) (i : Nat) : F :=
  1030.0 * 3.997e-19 * 2.55e14 * dz m.p i * (m.tn i * m.p.foan + m.ts i * m.p.foas)

/-- `havtemp` as an array. -/
def havtemps (m : Model F) : List F := (List.range m.p.lm).map (havtemp m)

/-- line 741 `max_layer`. -/
def maxLayer (p : Pams F) : Int := 7 - MathFn.floor (dz p 0 / 100.0)

/-- line 742 `frac`. -/
def fracLayer (p : Pams F) : F :=
  (1.0 + ofInt (MathFn.floor (dz p 0 / 100.0))) - dz p 0 / 100.0

/-- lines 715-747 `ocean_temperature`: `(OHC700, OHCTOT)`. -/
def oceanTemperature (m : Model F) : Except PyErr (F × F) := do
  let h ← pyIndex (havtemps m) (maxLayer m.p)
  return (fsum (pySlice (havtemps m) 0 (maxLayer m.p)) + fracLayer m.p * h, fsum (havtemps m))

/-- The returned dictionary, lines 644-662. -/
structure Out (F : Type) where
  dtemp : F
  dtempnh : F
  dtempsh : F
  tn : Nat → F
  ts : Nat → F
  dtemp_air : F
  dtempnh_air : F
  dtempsh_air : F
  dtemp_sea : F
  dtempnh_sea : F
  dtempsh_sea : F
  RIBN : F
  RIBS : F
  RIB : F
  OHC700 : F
  OHCTOT : F
  anomalous_radiation : F

/-- All sub-steps of a year, lines 511-615. -/
def subSteps (solve : Solver F) (m : Model F) (fn fs : F) (vn vs : List F) :
    Except PyErr (Model F × Acc F) :=
  (List.range m.p.ldtime.toNat).foldlM (subStep solve fn fs vn vs) (m, Acc.zero)

/-- lines 457-662 `energy_budget`. -/
def energyBudget (solve : Solver F) (m : Model F) (fn fs : F) (vn vs : List F) :
    Except PyErr (Out F × Model F) := do
  let r ← subSteps solve m fn fs vn vs
  let s := r.2
  let m' := { r.1 with prevFn := fn, prevFs := fs }
  let ohc ← oceanTemperature m'
  let anom := anomalousRadiation m' m.tn m.ts
  let ribn := fn + mean vn - m'.rlamda * s.tempn - anom
  let ribs := fs + mean vs - m'.rlamda * s.temps - anom
  return ({ dtemp := (s.tempn + s.temps) / 2.0, dtempnh := s.tempn, dtempsh := s.temps
            tn := m'.tn, ts := m'.ts
            dtemp_air := (s.tempn_air + s.temps_air) / 2.0
            dtempnh_air := s.tempn_air, dtempsh_air := s.temps_air
            dtemp_sea := (s.tempn_sea + s.temps_sea) / 2.0
            dtempnh_sea := s.tempn_sea, dtempsh_sea := s.temps_sea
            RIBN := ribn, RIBS := ribs, RIB := (ribn + ribs) / 2.0
            OHC700 := ohc.1, OHCTOT := ohc.2, anomalous_radiation := anom }, m')

/-- A year as the driver uses the model (ciceroscm.py:276-291): feedback update, energy budget. -/
structure Year (F : Type) where
  w_aero : F
  fn : F
  fs : F
  vn : List F
  vs : List F

/-- The outputs of a sequence of years and the final model. -/
def run (solve : Solver F) (m : Model F) : List (Year F) → Except PyErr (List (Out F) × Model F)
  | [] => .ok ([], m)
  | y :: ys => do
    let r ← energyBudget solve (setFeedback m y.w_aero) y.fn y.fs y.vn y.vs
    let rest ← run solve r.2 ys
    return (r.1 :: rest.1, rest.2)

end
end Verif.Model.UDM
