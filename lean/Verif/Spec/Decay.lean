import Mathlib.Analysis.SpecialFunctions.ExpDeriv

/-!
# Specification of first-order decay with a constant source

`dC/dt = source - rate * C` over one year, as an ordinary differential equation.
-/

namespace Verif.Spec

/-- `g` solves `g' = source - rate * g` on the unit interval. -/
def SolvesDecay (source rate : ℝ) (g : ℝ → ℝ) : Prop :=
  ∀ t ∈ Set.Icc (0 : ℝ) 1, HasDerivAt g (source - rate * g t) t

/-- `c1` is the concentration after one year of decay with lifetime `1 / rate` and constant source,
starting from `c0`: there is a solution of the equation, and every solution that starts in `c0` ends
in `c1`. -/
def AfterOneYear (source rate c0 c1 : ℝ) : Prop :=
  (∃ g, SolvesDecay source rate g ∧ g 0 = c0) ∧
    ∀ g, SolvesDecay source rate g → g 0 = c0 → g 1 = c1

/-- A yearly concentration series: prescribed before `es`, and in every year from `es` to `ne` one year
of decay (lifetime `tau`, source `(emissions + natural) / beta`) from the year before. -/
structure DecaySeries (presc em : ℤ → ℝ) (nat beta tau : ℝ) (ns es ne : ℤ) (v : ℤ → ℝ) : Prop where
  prescribed : ∀ y, ns ≤ y → y < es → y ≤ ne → v y = presc y
  computed : ∀ y, es ≤ y → y ≤ ne → AfterOneYear ((em y + nat) / beta) (1 / tau) (v (y - 1)) (v y)

end Verif.Spec
