import Verif.Py.Basic
import Mathlib.Data.Rat.Floor

/-!
# A computable number type for examples

Theorems about the flow of data hold for every number type. Rational numbers with stand-ins for the
transcendental functions (`exp x = 1 + x`, `log x = x - 1`, `sqrt x = x`, `x ^ y = x`) let the kernel
run the model in the examples that show that hypotheses can be met. Nothing is proved about physics
with this instance.
-/

namespace Verif.Py

instance : MathFn ℚ where
  exp := fun x => 1 + x
  log := fun x => x - 1
  sqrt := fun x => x
  abs := fun x => if x < 0 then -x else x
  sign := fun x => if x < 0 then -1 else if 0 < x then 1 else 0
  pow := fun x _ => x
  floor := fun x => x.floor
  ofInt := fun i => (i : ℚ)
  isEq := fun a b => decide (a = b)

end Verif.Py
