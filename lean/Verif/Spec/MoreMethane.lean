import Verif.Spec.MoreCo2

/-!
# What other concentrations of methane do (C100), independent of the proofs
-/

namespace Verif.Spec
open Verif.Py Verif.Model Verif.Model.Handler Verif.Model.Driver

/-- The rows of the gas table that methane reaches: ERF factors of CH4 (`sm`), N2O (`sn`), tropospheric ozone (`so`) and
stratospheric water vapour (`sw`). Ozone and water vapour, where the table has them, are components without a concentration unit
and without an efficiency of their own. -/
structure MethaneRows (gas : Dict (Gas ℝ)) (sm sn so sw : ℝ) : Prop where
  main : ∀ t ∈ ["CO2", "N2O", "CH4"], ∃ x, gas.get? t = some x ∧ x.concUnit ≠ "-"
  ch4 : ∃ x, gas.get? "CH4" = some x ∧ x.sarf = sm
  n2o : ∃ x, gas.get? "N2O" = some x ∧ x.sarf = sn
  ozone : ∀ x, gas.get? "TROP_O3" = some x → x.concUnit = "-" ∧ x.alpha = 0 ∧ x.sarf = so
  water : ∀ x, gas.get? "STRAT_H2O" = some x → x.concUnit = "-" ∧ x.alpha = 0 ∧ x.sarf = sw

/-- The documented effect on the forcing of CH4 of prescribing the concentrations `t'` instead of `t`. -/
noncomputable def methaneEffect (sm : ℝ) (t t' : String → ℤ → ℝ) (ns y : ℤ) : ℝ :=
  sm * ch4Forcing (t' "CH4" y) (t' "CH4" ns) (t' "N2O" y) (t' "N2O" ns)
    - sm * ch4Forcing (t "CH4" y) (t "CH4" ns) (t "N2O" y) (t "N2O" ns)

/-- The same for tropospheric ozone: 6.7 DU per unit of the logarithm of methane, scaled between the ozone `o0` of the start
year and 30 DU; `qo` is the forcing of that difference. -/
noncomputable def ozoneEffect (so qo o0 : ℝ) (t t' : String → ℤ → ℝ) (y : ℤ) : ℝ :=
  if o0 = 30 then 0 else so * (qo * (6.7 * (Real.log (t' "CH4" y) - Real.log (t "CH4" y)) / (30 - o0)))

/-- The documented effect of other methane on every component: on CH4 itself, on N2O by the overlap, on water vapour by the
share `qw` of the forcing of CH4, on ozone, and on nothing else. -/
noncomputable def methaneReach (sm sn so sw qo qw o0 : ℝ) (t t' : String → ℤ → ℝ) (ns y : ℤ) (k : String) : ℝ :=
  if k = "CH4" then methaneEffect sm t t' ns y
  else if k = "N2O" then overlapEffect sn t t' ns y
  else if k = "STRAT_H2O" then sw * (qw * methaneEffect sm t t' ns y)
  else if k = "TROP_O3" then ozoneEffect so qo o0 t t' y
  else 0

/-- The components that react to methane. -/
def methaneNames : List String := ["CH4", "N2O", "STRAT_H2O", "TROP_O3"]

/-- The prescribed concentrations `t'` have at least as much methane in every year as `t`, and all are in the range of the
formulas: at most 5000 ppb methane, at most 1000 ppb N2O. -/
structure MoreMethane (t t' : String → ℤ → ℝ) (ns ne : ℤ) : Prop where
  start : t' "CH4" ns = t "CH4" ns
  more : ∀ y, ns ≤ y → y ≤ ne → t "CH4" y ≤ t' "CH4" y
  pos : ∀ y, ns ≤ y → y ≤ ne → 0 < t "CH4" y
  top : ∀ y, ns ≤ y → y ≤ ne → t' "CH4" y ≤ 5000
  n2o : ∀ y, ns ≤ y → y ≤ ne → 0 ≤ t "N2O" y ∧ t "N2O" y ≤ 1000

end Verif.Spec
