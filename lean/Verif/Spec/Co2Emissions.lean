import Verif.Spec.Emissions
import Verif.Spec.MoreCo2

/-!
# More CO2 emitted (C99), independent of the proofs
-/

namespace Verif.Spec
open Verif.Py Verif.Model Verif.Model.Handler Verif.Model.Driver

variable {κ : Type}

/-- The concentrations a run reports. -/
def reportedConc (g : Handler ℝ κ) (c : String) (y : ℤ) : ℝ := (concOf g c y).getD 0

/-- The two emissions the CO2 concentration is computed from. -/
def co2Species : List String := ["CO2_FF", "CO2_AFOLU"]

/-- The gas table has lifetimes for methane and N2O, no forcing efficiency for tropospheric ozone (whose forcing is computed from
its precursors), and no rows named like the two CO2 emissions or like a reported column that is not a gas. -/
structure UsualGases (gas : Dict (Gas ℝ)) : Prop where
  n2o : ∀ x, gas.get? "N2O" = some x → x.tau1 ≠ 0
  ch4 : ∀ x, gas.get? "CH4" = some x → x.tau1 ≠ 0
  ozone : ∀ x, gas.get? "TROP_O3" = some x → x.alpha = 0
  names : ∀ c ∈ co2Species, c ∉ gas.keys
  notDirect : "SO4_DIR" ∉ gas.keys

/-- The box carbon cycle without temperature effects: fertilisation and the yearly shares are not negative, no pool loses more
than it has in a year, and down to `lo` ppm an additional ppm of CO2 does not make land and ocean take up more than that ppm. -/
structure CalmBox (beta fraction respiration solubility lo : ℝ) : Prop where
  fertilises : 0 ≤ beta
  shares : 0 ≤ fraction ∧ fraction ≤ 1
  respired : 0 ≤ respiration ∧ respiration ≤ 1
  positive : 0 < lo
  start : lo ≤ 278
  uptake : solubility + beta / lo ≤ 2.123

end Verif.Spec
