import Mathlib.Analysis.SpecialFunctions.Pow.Real
import Mathlib.Data.Sign.Basic
import Mathlib.Data.Real.Sign

/-!
# Specification of stratospheric ozone depletion

`cl` and `br` list the halogenated gases with the number of chlorine and bromine atoms, `c0` are the
concentrations of the start year and `c` those of the year whose halogens act.
-/

namespace Verif.Spec

/-- Chlorine loading above the start year, with the power 1.7 applied to the magnitude. -/
noncomputable def chlorineTerm (c0 c : String → ℝ) (g : String × ℤ) : ℝ :=
  (SignType.sign (c g.1 - c0 g.1) : ℝ) * ((g.2 : ℝ) * |c g.1 - c0 g.1|) ^ (1.7 : ℝ)

/-- Bromine loading above the start year. -/
noncomputable def bromineTerm (c0 c : String → ℝ) (g : String × ℤ) : ℝ :=
  (g.2 : ℝ) * (c g.1 - c0 g.1)

/-- The forcing. -/
noncomputable def ozoneDepletion (sarf : ℝ) (cl br : List (String × ℤ)) (c0 c : String → ℝ) : ℝ :=
  -(0.05 / 0.17377 * (0.000552 * (cl.map (chlorineTerm c0 c)).sum
      + 3.048 * (br.map (bromineTerm c0 c)).sum)) / 1000 * sarf

end Verif.Spec
