import Verif.Spec.Perturb

/-! # The hemispheric weight of a reported forcing column (C05, C98) -/

namespace Verif.Spec

/-- The weight of the northern hemisphere for a column of the reported forcing table; that of the southern hemisphere is two
minus this. Direct sulfate forcing is reported as `SO4_DIR`. -/
noncomputable def columnWeight (column : String) : ℝ := if column = "SO4_DIR" then 1.47 else nhWeight column

end Verif.Spec
