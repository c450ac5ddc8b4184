import Verif.Py.Basic

/-!
# Two-layer thermal model: `thermal_model/two_layer_ocean.py`

Line numbers refer to that file unless another file is named.
-/

namespace Verif.Model.TwoLayer
open Verif.Py

/-- The (sanitised) parameter set, lines 24-37. -/
structure Pams (F : Type) where
  lambda : F
  mixed : F
  deep : F
  k : F
  ocean_efficacy : F
  foan : F
  foas : F
  delta_lambda_aero : F

/-- Lines 87-90: the two layer temperatures and the effective feedback. -/
structure State (F : Type) where
  temp_fast : F
  temp_slow : F
  lambda_eff : F

/-- The returned dictionary, lines 220-232. -/
structure Out (F : Type) where
  dtemp : F
  dtemp_fast : F
  dtemp_slow : F
  RIB : F
  OHCTOT : F
  OHC_MIXED : F
  OHC_DEEP : F
  dtemp_sea : F
  OHC700 : F

section
variable {F : Type} [Add F] [Sub F] [Mul F] [Div F] [OfScientific F] [LT F] [DecidableLT F] [MathFn F]

/-- constants.py: `SEC_DAY * DAY_YEAR`. -/
def secYear : F := 86400.0 * 365.0
/-- constants.py: `OCEAN_AREA`. -/
def OCEAN_AREA : F := 3.61e14

/-- lines 24-37 `thermal_model_required_pamset`. -/
def Pams.default : Pams F :=
  { lambda := 3.74 / 3.0, mixed := 50.0, deep := 1200.0, k := 0.5, ocean_efficacy := 1.0,
    foan := 0.61, foas := 0.81, delta_lambda_aero := 0.0 }

/-- lines 74-79 (`WATER_DENSITY = 1000`, `WATER_HEAT_CAPACITY = 4184`, constants.py). -/
def cFast (p : Pams F) : F := p.mixed * 1000.0 * 4184.0 / secYear
/-- lines 80-85. -/
def cSlow (p : Pams F) : F := p.deep * 1000.0 * 4184.0 / secYear

/-- lines 87-90. -/
def init (p : Pams F) : State F := ⟨0.0, 0.0, p.lambda⟩

/-- lines 102-114 `set_feedback_gregory`. -/
def setFeedback (p : Pams F) (st : State F) (w_aero : F) : State F :=
  { st with lambda_eff := p.lambda + w_aero * p.delta_lambda_aero }

/-- `np.mean` of a (monthly) series. -/
def mean (xs : List F) : F := fsum xs / ofInt xs.length

/-- line 147: total forcing; the volcanic series are added element by element. -/
def forcing (nh sh : F) (vn vs : List F) : F :=
  (nh + sh) / 2.0 + mean (List.zipWith (· + ·) vn vs)

/-- lines 149-165: the state update. Simplification: a layer of depth zero divides by zero with the total division of
the number type (Python raises, or gives infinities, depending on whether the numbers are numpy's). -/
def step (p : Pams F) (st : State F) (forc : F) : State F :=
  let d_fast := (forc - st.temp_fast * st.lambda_eff
      - p.k * p.ocean_efficacy * (st.temp_fast - st.temp_slow)) / cFast p
  let d_slow := p.k * (st.temp_fast - st.temp_slow) / cSlow p
  { st with temp_fast := st.temp_fast + d_fast, temp_slow := st.temp_slow + d_slow }

/-- lines 169-218: the outputs, computed from the updated state. Python's `mixed_depth >= 700` is
rendered as `not (mixed < 700)` (they differ on NaN only). -/
def output (p : Pams F) (st : State F) (forc : F) : Out F :=
  let rib := forc - st.lambda_eff * st.temp_fast
    - (p.ocean_efficacy - 1.0) * p.k * (st.temp_fast - st.temp_slow)
  let dtemp := forc / st.lambda_eff * (1.0 - (p.foan + p.foas) / 2.0)
    + st.temp_fast * (p.foan + p.foas) / 2.0
  let ohc_mixed := st.temp_fast * cFast p * secYear * OCEAN_AREA / 1e22
  let ohc_deep := st.temp_slow * cSlow p * secYear * OCEAN_AREA / 1e22
  let ohc700 := if p.mixed < 700.0 then
      let remaining := 700.0 - p.mixed
      let frac := if 1.0 < remaining / p.deep then 1.0 else remaining / p.deep
      ohc_mixed + ohc_deep * frac
    else ohc_mixed * (700.0 / p.mixed)
  { dtemp := dtemp, dtemp_fast := st.temp_fast, dtemp_slow := st.temp_slow, RIB := rib,
    OHCTOT := ohc_mixed + ohc_deep, OHC_MIXED := ohc_mixed, OHC_DEEP := ohc_deep,
    dtemp_sea := st.temp_fast, OHC700 := ohc700 }

/-- lines 116-232 `energy_budget`. -/
def energyBudget (p : Pams F) (st : State F) (nh sh : F) (vn vs : List F) : State F × Out F :=
  let forc := forcing nh sh vn vs
  let st := step p st forc
  (st, output p st forc)

/-- One year as the driver uses the model (ciceroscm.py:276-291): optional feedback update, then the
energy budget. -/
structure Year (F : Type) where
  w_aero : Option F
  nh : F
  sh : F
  vn : List F
  vs : List F

/-- The optional feedback update of a year (ciceroscm.py:281 always gives a weight; a user stepping
the model may not). -/
def startYear (p : Pams F) (st : State F) : Option F → State F
  | some w => setFeedback p st w
  | none => st

/-- The outputs of a sequence of years and the final state. -/
def run (p : Pams F) (st : State F) : List (Year F) → State F × List (Out F)
  | [] => (st, [])
  | y :: ys =>
    let st := startYear p st y.w_aero
    let r := energyBudget p st y.nh y.sh y.vn y.vs
    let rest := run p r.1 ys
    (rest.1, r.2 :: rest.2)

end
end Verif.Model.TwoLayer
