import Verif.Py.Basic
import Mathlib.Analysis.SpecialFunctions.Pow.Real
import Mathlib.Analysis.SpecialFunctions.Sqrt
import Mathlib.Algebra.Order.Floor.Ring

/-!
# The exact-arithmetic instance: real numbers
-/

namespace Verif.Py

noncomputable instance : MathFn ℝ where
  exp := Real.exp
  log := Real.log
  sqrt := Real.sqrt
  abs := fun x => |x|
  sign := fun x => SignType.sign x
  pow := fun x y => x ^ y
  floor := fun x => ⌊x⌋
  ofInt := fun i => (i : ℝ)
  isEq := fun a b => decide (a = b)

@[simp] theorem mexp (x : ℝ) : MathFn.exp x = Real.exp x := rfl
@[simp] theorem mlog (x : ℝ) : MathFn.log x = Real.log x := rfl
@[simp] theorem msqrt (x : ℝ) : MathFn.sqrt x = Real.sqrt x := rfl
@[simp] theorem mabs (x : ℝ) : MathFn.abs x = |x| := rfl
@[simp] theorem msign (x : ℝ) : MathFn.sign x = (SignType.sign x : ℝ) := rfl
@[simp] theorem mpow (x y : ℝ) : MathFn.pow x y = x ^ y := rfl
@[simp] theorem mfloor (x : ℝ) : MathFn.floor x = ⌊x⌋ := rfl
@[simp] theorem mofInt (i : ℤ) : (ofInt i : ℝ) = (i : ℝ) := rfl
@[simp] theorem misEq (x y : ℝ) : (isEq x y = true) = (x = y) := by
  simp [isEq]

/-- Python-order sums over the reals are ordinary sums. -/
theorem fsum_eq_sum (l : List ℝ) : fsum l = l.sum := by
  have h : ∀ (l : List ℝ) (a : ℝ), l.foldl (· + ·) a = a + l.sum := by
    intro l
    induction l with
    | nil => simp
    | cons x l ih => intro a; simp [ih, add_assoc]
  have h0 : (0.0 : ℝ) = 0 := by norm_num
  simp [fsum, h, h0]

end Verif.Py
