import Verif.Spec.OneGas
import Verif.Spec.Forcing

/-!
# What other concentrations of CO2 do (C96), independent of the proofs
-/

namespace Verif.Spec
open Verif.Py Verif.Model Verif.Model.Handler Verif.Model.Driver

/-- The ERF factors of CO2 and N2O in the gas table. -/
structure Factors (gas : Dict (Gas ℝ)) (sc sn : ℝ) : Prop where
  co2 : ∃ x, gas.get? "CO2" = some x ∧ x.sarf = sc
  n2o : ∃ x, gas.get? "N2O" = some x ∧ x.sarf = sn

/-- The documented effect on the forcing of CO2 of prescribing the concentrations `t'` instead of `t`. -/
noncomputable def co2Effect (sc : ℝ) (t t' : String → ℤ → ℝ) (ns y : ℤ) : ℝ :=
  sc * co2Forcing (t' "CO2" y) (t' "CO2" ns) (t' "N2O" y) (t' "N2O" ns)
    - sc * co2Forcing (t "CO2" y) (t "CO2" ns) (t "N2O" y) (t "N2O" ns)

/-- The same for the forcing of N2O, whose absorption bands overlap with those of CO2. -/
noncomputable def overlapEffect (sn : ℝ) (t t' : String → ℤ → ℝ) (ns y : ℤ) : ℝ :=
  sn * n2oForcing (t' "N2O" y) (t' "N2O" ns) (t' "CO2" y) (t' "CO2" ns) (t' "CH4" y) (t' "CH4" ns)
    - sn * n2oForcing (t "N2O" y) (t "N2O" ns) (t "CO2" y) (t "CO2" ns) (t "CH4" y) (t "CH4" ns)

/-- The prescribed concentrations `t'` have at least as much CO2 in every year as `t`, both start from the same value, and all
are in the range of the formulas: at most 5000 ppm CO2, not more than 1500 ppm from the start year, at most 10000 ppb N2O. -/
structure MoreCo2 (t t' : String → ℤ → ℝ) (ns ne : ℤ) : Prop where
  start : t' "CO2" ns = t "CO2" ns
  more : ∀ y, ns ≤ y → y ≤ ne → t "CO2" y ≤ t' "CO2" y
  pos : ∀ y, ns ≤ y → y ≤ ne → 0 < t "CO2" y
  top : ∀ y, ns ≤ y → y ≤ ne → t' "CO2" y ≤ 5000
  near : ∀ y, ns ≤ y → y ≤ ne → |t "CO2" y - t "CO2" ns| ≤ 1500 ∧ |t' "CO2" y - t "CO2" ns| ≤ 1500
  n2o : ∀ y, ns ≤ y → y ≤ ne → 0 ≤ t "N2O" y ∧ t "N2O" y ≤ 10000

end Verif.Spec
