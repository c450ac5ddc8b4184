import Mathlib.Data.Real.Basic
import Verif.Py.Basic

/-!
# Specification: tridiagonal systems

What is assumed of SciPy's `solve_banded` (exact arithmetic), and what "diagonally dominant" means.
Nothing here refers to the model.
-/

namespace Verif.Spec.Tridiag
open Verif.Py

/-- Row `i` of the matrix with lower diagonal `a` (entry of column `j` in row `j+1`), diagonal `b` and
upper diagonal `c` (entry of column `j` in row `j-1`), applied to `T`, for `n` unknowns. This is the
matrix `scipy.linalg.solve_banded((1, 1), [c, b, a], d)` solves. -/
def row (n : ℕ) (a b c T : ℕ → ℝ) (i : ℕ) : ℝ :=
  (if 0 < i then a (i - 1) * T (i - 1) else 0) + b i * T i
    + (if i + 1 < n then c (i + 1) * T (i + 1) else 0)

/-- `T` solves the system. -/
def Solves (n : ℕ) (a b c d T : ℕ → ℝ) : Prop := ∀ i < n, row n a b c T i = d i

/-- The system has at most one solution for every right-hand side, i.e. the matrix is regular. -/
def Regular (n : ℕ) (a b c : ℕ → ℝ) : Prop :=
  ∀ T, (∀ i < n, row n a b c T i = 0) → ∀ i < n, T i = 0

/-- A solver in exact arithmetic: whatever it returns is a solution (of `n` entries), it returns
something for every regular matrix and only for those (SciPy raises `LinAlgError` for a singular
one). -/
structure Exact (solve : ℕ → (ℕ → ℝ) → (ℕ → ℝ) → (ℕ → ℝ) → (ℕ → ℝ) → Except PyErr (ℕ → ℝ)) : Prop where
  sound : ∀ n a b c d T, solve n a b c d = .ok T → Solves n a b c d T ∧ ∀ i, n ≤ i → T i = 0
  total : ∀ n a b c d, Regular n a b c → ∃ T, solve n a b c d = .ok T
  regular : ∀ n a b c d T, solve n a b c d = .ok T → Regular n a b c

/-- Strict diagonal dominance by rows, with a positive diagonal and couplings of the sign of a
diffusion matrix. -/
def Dominant (n : ℕ) (a b c : ℕ → ℝ) : Prop :=
  ∀ i < n, (0 < i → a (i - 1) ≤ 0) ∧ (i + 1 < n → c (i + 1) ≤ 0) ∧
    (if 0 < i then |a (i - 1)| else 0) + (if i + 1 < n then |c (i + 1)| else 0) < b i

end Verif.Spec.Tridiag
