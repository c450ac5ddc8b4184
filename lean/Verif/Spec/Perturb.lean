import Verif.Model.Perturb
import Mathlib.Data.Real.Basic

/-! # Specification vocabulary for perturbations (C05, C09, C10, C11) -/

namespace Verif.Spec
open Verif.Model

/-- Sum of all rows of a perturbation table that concern `component` in year `y`. -/
noncomputable def pertSum (rows : List (PertRow ℝ)) (component : String) (y : ℤ) : ℝ :=
  ((rows.filter (fun r => r.component = component ∧ r.year = y)).map PertRow.value).sum

/-- Sum of all rows of year `y` whose component is one of `known`. -/
noncomputable def pertSumKnown (rows : List (PertRow ℝ)) (known : List String) (y : ℤ) : ℝ :=
  ((rows.filter (fun r => r.component ∈ known ∧ r.year = y)).map PertRow.value).sum

/-- Northern-hemisphere weight of a component as documented (Smith et al. 2020, Skeie et al. 2020);
the southern weight is `2 - w`. -/
noncomputable def nhWeight (tracer : String) : ℝ :=
  if tracer = "SO2" ∨ tracer = "SO4_IND" ∨ tracer = "BC" ∨ tracer = "OC" ∨ tracer = "BMB_AEROS"
      ∨ tracer = "BMB_AEROS_OC" ∨ tracer = "BMB_AEROS_BC" then 1.47
  else if tracer = "TROP_O3" then 1.45
  else if tracer = "LANDUSE" then 1.42
  else 1

end Verif.Spec
