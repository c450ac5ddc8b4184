import Verif.Model.RFuns

/-!
# Default carbon cycle: `carbon_cycle/carbon_cycle_mod.py`

Line numbers refer to that file unless another file is named.
-/

namespace Verif.Model.Carbon
open Verif.Py

/-- The entries of `self.pamset` and the precomputed response arrays the model reads. `rs`/`rb` are
the rows of `self.r_functions`. -/
structure Pams (F : Type) where
  beta_f : F
  mixed_carbon : F
  ml_w_sigmoid : F
  ml_fracmax : F
  ml_t_half : F
  t_half : F
  w_sigmoid : F
  t_threshold : F
  w_threshold : F
  solubility_sens : F
  solubility_limit : F
  ml_depth_min : F
  preindustrial_co2_conc : F
  idtm : Nat
  years_tot : Nat
  rs : Nat → F
  rb : Nat → F

section
variable {F : Type} [Add F] [Sub F] [Mul F] [Div F] [Neg F] [OfScientific F] [LT F] [DecidableLT F]
  [MathFn F]

/-- common_carbon_cycle_functions.py:10 `OCEAN_AREA`. -/
def OCEAN_AREA : F := 3.62e14
/-- common_carbon_cycle_functions.py:13 `GE_COEFF`. -/
def GE_COEFF : F := 1.0 / (OCEAN_AREA * 9.06)
/-- common_carbon_cycle_functions.py:17. -/
def PPMKG_TO_UMOL_PER_VOL : F := 1.722e17
/-- common_carbon_cycle_functions.py:20. -/
def PPM_CO2_TO_PG_C : F := 2.123

/-- lines 80-94 `CARBON_CYCLE_MODEL_REQUIRED_PAMSET`, with the default responses
(lines 278-324 `precalc_r_functions` without `rs_function`/`rb_function`). -/
def Pams.default (idtm years_tot : Nat) : Pams F :=
  { beta_f := 0.287, mixed_carbon := 75.0, ml_w_sigmoid := 3.0, ml_fracmax := 0.5, ml_t_half := 0.5,
    t_half := 0.5, w_sigmoid := 7.0, t_threshold := 4.0, w_threshold := 7.0, solubility_sens := 0.02,
    solubility_limit := 0.5, ml_depth_min := 10.0, preindustrial_co2_conc := 278.0,
    idtm := idtm, years_tot := years_tot,
    rs := fun i => rsFunction i idtm, rb := fun i => rbFunction i idtm }

/-- lines 52-53 `sigmoid_gen`. -/
def sigmoidGen (x center width : F) : F := 1.0 / (1.0 + MathFn.exp (-((x - center) / width)))

/-- lines 74-77 `threshold_gen`. -/
def thresholdGen (x half width : F) : F := 1.0 - 1.0 / (1.0 + MathFn.exp (-((x - half) / width)))

/-- lines 364-377 `fnpp_from_temp`. -/
def fnppFromTemp (p : Pams F) (dtemp : F) : F :=
  let sigmoid := fun x => sigmoidGen x p.t_half p.w_sigmoid
  let threshold := fun x => thresholdGen x p.t_threshold p.w_threshold
  let baseline := 60.0 / (sigmoid 0.0 * threshold 0.0)
  baseline * sigmoid dtemp * threshold dtemp

/-- `np.clip(x, lo, hi) = minimum(maximum(x, lo), hi)`. -/
def clip (x lo hi : F) : F :=
  let m := if x < lo then lo else x
  if hi < m then hi else m

/-- lines 398-401 `solubility_temp_feedback`. -/
def solubilityTempFeedback (p : Pams F) (dtemp : F) : F :=
  clip (MathFn.exp (-p.solubility_sens * dtemp)) 0.0 (1.0 + p.solubility_limit)

/-- lines 417-425 `mixed_layer_temp_feedback`; `np.maximum(depth, min)`. -/
def mixedLayerTempFeedback (p : Pams F) (dtemp : F) : F :=
  let sigmoid := fun x => sigmoidGen x p.ml_t_half p.ml_w_sigmoid
  let mixed_layer_temp := 1.0 - p.ml_fracmax * sigmoid dtemp
  let baseline := 1.0 - p.ml_fracmax * sigmoid 0.0
  let depth := p.mixed_carbon * mixed_layer_temp / baseline
  if depth < p.ml_depth_min then p.ml_depth_min else depth

/-- line 98 `_Z_CO2_MAX`. -/
def zCo2Max : F := 293.5

/-- lines 474-481, the polynomial branch (also lines 106-112 at `_Z_CO2_MAX`); integer powers are
repeated products. -/
def pco2Poly (z : F) : F :=
  1.3021 * z + 3.7929e-3 * (z * z) + 9.1193e-6 * (z * z * z) + 1.488e-8 * (z * z * z * z)
    + 1.2425e-10 * (z * z * z * z * z)

/-- lines 113-119 `_DPCO2_DZ_AT_MAX` as a function of the cap. -/
def pco2Slope (z : F) : F :=
  1.3021 + 2.0 * 3.7929e-3 * z + 3.0 * 9.1193e-6 * (z * z) + 4.0 * 1.488e-8 * (z * z * z)
    + 5.0 * 1.2425e-10 * (z * z * z * z)

/-- lines 474-485: partial pressure as a function of the dissolved carbon perturbation, before the
solubility scaling. Python's `z <= max` is rendered as `not (max < z)` (they differ on NaN only). -/
def pco2Of (z : F) : F :=
  if zCo2Max < z then
    pco2Poly zCo2Max + pco2Slope zCo2Max * zCo2Max * MathFn.log (z / zCo2Max)
  else pco2Poly z

/-- `self.co2_hold` plus `self.temp_feedbacks`. The arrays `sCO2`, `dfnpp` are functions of the
sub-step index, zero outside the written part. -/
structure State (F : Type) where
  yCO2 : F
  xCO2 : F
  sCO2 : Nat → F
  emCO2_prev : F
  dfnpp : Nat → F
  ss1 : F
  sums : F
  solFb : F
  mlFb : F

/-- lines 190-198 `reset_co2_hold` (the hold values). After a re-run the feedback values are those of the last year of the previous run, but
they are overwritten before being read. -/
def resetHold (p : Pams F) (st : State F) : State F :=
  { st with yCO2 := 0.0, xCO2 := p.preindustrial_co2_conc, sCO2 := fun _ => 0.0, emCO2_prev := 0.0,
            dfnpp := fun _ => 0.0, ss1 := 0.0, sums := 0.0 }

/-- State after construction, lines 166-174. -/
def initState (p : Pams F) : State F :=
  { yCO2 := 0.0, xCO2 := p.preindustrial_co2_conc, sCO2 := fun _ => 0.0, emCO2_prev := 0.0,
    dfnpp := fun _ => 0.0, ss1 := 0.0, sums := 0.0, solFb := 1.0, mlFb := p.mixed_carbon }

/-- The scalars saved by `_get_co2_hold_values` (lines 269-276). -/
structure Hold (F : Type) where
  yco2 : F
  xco2 : F
  emco2_prev : F
  ss1 : F
  sums : F

/-- lines 269-276 `_get_co2_hold_values`. -/
def getHold (st : State F) : Hold F := ⟨st.yCO2, st.xCO2, st.emCO2_prev, st.ss1, st.sums⟩

/-- lines 249-257 `_set_co2_hold` with all five keys present. -/
def setHold (st : State F) (h : Hold F) : State F :=
  { st with yCO2 := h.yco2, xCO2 := h.xco2, emCO2_prev := h.emco2_prev, ss1 := h.ss1, sums := h.sums }

/-- lines 443-463: dissolved carbon in the mixed layer at sub-step `it`:
`sum_j s[j] * rs[it-1-j]` over `j < it-1`, plus half the newest flux. -/
def zCo2 (p : Pams F) (st : State F) (it : Nat) : F :=
  let dt : F := 1.0 / ofInt p.idtm
  let sumz := if 0 < it then
      fsum ((List.range (it - 1)).map (fun j => st.sCO2 j * p.rs (it - 1 - j)))
    else 0.0
  PPMKG_TO_UMOL_PER_VOL * GE_COEFF * dt / st.mlFb * (sumz + 0.5 * st.sCO2 it)

/-- lines 427-486 `_calculate_partial_pressure_mixed_layer`. -/
def partialPressure (p : Pams F) (st : State F) (it : Nat) : F :=
  st.solFb * pco2Of (zCo2 p st it)

/-- lines 543-547: `sum_j dfnpp[j] * rb[it-1-j]` over `1 ≤ j < it`. -/
def sumf (p : Pams F) (dfnpp : Nat → F) (it : Nat) : F :=
  fsum ((List.range (it - 1)).map (fun j => dfnpp (j + 1) * p.rb (it - 2 - j)))

/-- lines 521-597: one sub-step of `co2em2conc`. -/
def subStep (p : Pams F) (fnpp em_co2_common : F) (st : State F) (it : Nat) : State F :=
  let dt : F := 1.0 / ofInt p.idtm
  let k : F := OCEAN_AREA * GE_COEFF
  let cc1 := dt * OCEAN_AREA * GE_COEFF / (1.0 + dt * OCEAN_AREA * GE_COEFF / 2.0)
  let npp := fnpp * p.beta_f * MathFn.log (st.xCO2 / p.preindustrial_co2_conc)
  let st := if 0 < it then { st with dfnpp := upd st.dfnpp it npp } else st
  let sumf := if 0 < it then sumf p st.dfnpp it else 0.0
  let ffer := st.dfnpp it - dt * sumf
  let em_co2 := (em_co2_common - ffer) / PPM_CO2_TO_PG_C
  let st := if it = 0 then { st with ss1 := 0.5 * em_co2 / k, sums := 0.0 }
    else { st with sums := st.sums + st.emCO2_prev / k - st.sCO2 (it - 1) }
  let ss2 := if it = 0 then st.ss1
    else 0.5 * em_co2 / k - st.yCO2 / (dt * OCEAN_AREA * GE_COEFF)
  let st := { st with sCO2 := upd st.sCO2 it (cc1 * (st.sums + st.ss1 + ss2)), emCO2_prev := em_co2 }
  let yco2_prev := st.yCO2
  let st := { st with yCO2 := partialPressure p st it }
  { st with xCO2 := st.sCO2 it + 0.5 * st.yCO2 + 0.5 * yco2_prev + p.preindustrial_co2_conc }

/-- lines 488-599 `co2em2conc` for year index `yrix = yr - nystart`; the returned concentration is
`xCO2` of the result. `fb` is `feedback_dict.get("dtemp")`. -/
def co2em2conc (p : Pams F) (st : State F) (yrix : Nat) (em : F) (fb : Option F) : State F :=
  let dtemp := fb.getD 0.0
  let st := { st with solFb := solubilityTempFeedback p dtemp, mlFb := mixedLayerTempFeedback p dtemp }
  let fnpp := fnppFromTemp p dtemp
  (List.range p.idtm).foldl (fun st i => subStep p fnpp em st (yrix * p.idtm + i)) st

/-- A forward run: years `0, 1, …` with the given (emission, feedback) pairs, starting at year
index `y0`. -/
def runFrom (p : Pams F) (st : State F) (y0 : Nat) : List (F × Option F) → State F
  | [] => st
  | i :: l => runFrom p (co2em2conc p st y0 i.1 i.2) (y0 + 1) l

/-- lines 649-659 `_get_ffer_timeseries` of an emission run (entry `it`). -/
def fferSeries (p : Pams F) (dfnpp : Nat → F) (it : Nat) : F :=
  let dt : F := 1.0 / ofInt p.idtm
  let sf := if 0 < it then sumf p dfnpp it else 0.0
  dfnpp it - dt * sf

/-- lines 627-647 the `dfnpp` array of a concentration series in `_get_ffer_timeseries`. -/
def dfnppOfConc (p : Pams F) (conc dtemp : Nat → F) (it : Nat) : F :=
  p.beta_f * MathFn.log (conc (it / p.idtm) / p.preindustrial_co2_conc)
    * fnppFromTemp p (dtemp (it / p.idtm))

/-- lines 689-706 `get_biosphere_carbon_flux`: yearly mean of ffer. -/
def biosphereFlux (p : Pams F) (dfnpp : Nat → F) (yrix : Nat) : F :=
  fsum ((List.range p.idtm).map (fun i => fferSeries p dfnpp (p.idtm * yrix + i))) / ofInt p.idtm

/-- lines 735-753 `get_ocean_carbon_flux`: yearly mean of the air-sea flux in PgC/yr. -/
def oceanFlux (p : Pams F) (st : State F) (yrix : Nat) : F :=
  fsum ((List.range p.idtm).map (fun i => st.sCO2 (p.idtm * yrix + i))) * PPM_CO2_TO_PG_C
    / ofInt p.idtm * GE_COEFF * OCEAN_AREA

/-- common_carbon_cycle_functions.py:50-57 `calculate_airborne_fraction`; `none` is the all-NaN
result. -/
def airborneFraction (em conc : List F) (pre : F) : Option (List F) :=
  let cum := (List.range em.length).map (fun i => fsum (em.take (i + 1)))
  if cum.any (fun c => isEq c 0.0) then none
  else some (List.zipWith (fun c e => (c - pre) / e * PPM_CO2_TO_PG_C) conc cum)

end
end Verif.Model.Carbon
