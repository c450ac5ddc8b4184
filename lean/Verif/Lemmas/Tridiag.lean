import Mathlib.LinearAlgebra.FiniteDimensional.Basic
import Mathlib.LinearAlgebra.FiniteDimensional.Lemmas
import Mathlib.Tactic.Linarith
import Mathlib.Tactic.Ring
import Verif.Spec.Tridiag

/-!
# Tridiagonal systems: maximum principle, uniqueness, existence, an exact solver
-/

namespace Verif.Lemmas.Tridiag
open Verif.Py Verif.Spec.Tridiag

theorem row_congr {n : ℕ} {a b c T T' : ℕ → ℝ} (h : ∀ i < n, T i = T' i) {i : ℕ} (hi : i < n) :
    row n a b c T i = row n a b c T' i := by
  unfold row
  rw [h i hi]
  congr 1
  · congr 1
    split
    · rw [h (i - 1) (by omega)]
    · rfl
  · split
    · rename_i h1; rw [h (i + 1) h1]
    · rfl

theorem row_add (n : ℕ) (a b c T U : ℕ → ℝ) (i : ℕ) :
    row n a b c (fun j => T j + U j) i = row n a b c T i + row n a b c U i := by
  unfold row; split <;> split <;> ring

theorem row_smul (n : ℕ) (a b c T : ℕ → ℝ) (k : ℝ) (i : ℕ) :
    row n a b c (fun j => k * T j) i = k * row n a b c T i := by
  unfold row; split <;> split <;> ring

/-- A finite non-empty range has a minimiser. -/
theorem exists_min (n : ℕ) (T : ℕ → ℝ) (hn : 0 < n) : ∃ i < n, ∀ j < n, T i ≤ T j := by
  have : ((Finset.range n)).Nonempty := ⟨0, by simpa using hn⟩
  obtain ⟨i, hi, h⟩ := Finset.exists_min_image (Finset.range n) T this
  exact ⟨i, by simpa using hi, fun j hj => h j (by simpa using hj)⟩

/-- Maximum principle. -/
theorem nonneg {n : ℕ} {a b c T : ℕ → ℝ} (hd : Dominant n a b c)
    (h : ∀ i < n, 0 ≤ row n a b c T i) : ∀ i < n, 0 ≤ T i := by
  intro i hi
  obtain ⟨k, hk, hmin⟩ := exists_min n T (by omega)
  refine le_trans ?_ (hmin i hi)
  by_contra hneg
  push Not at hneg
  obtain ⟨ha, hc, hb⟩ := hd k hk
  have hr := h k hk
  unfold row at hr
  have e1 : (if 0 < k then a (k - 1) * T (k - 1) else 0)
      ≤ -(if 0 < k then |a (k - 1)| else 0) * T k := by
    split
    · rename_i h0
      rw [abs_of_nonpos (ha h0)]
      have := mul_le_mul_of_nonpos_left (hmin (k - 1) (by omega)) (ha h0)
      linarith
    · simp
  have e2 : (if k + 1 < n then c (k + 1) * T (k + 1) else 0)
      ≤ -(if k + 1 < n then |c (k + 1)| else 0) * T k := by
    split
    · rename_i h0
      rw [abs_of_nonpos (hc h0)]
      have := mul_le_mul_of_nonpos_left (hmin (k + 1) h0) (hc h0)
      linarith
    · simp
  have := mul_neg_of_pos_of_neg (sub_pos.mpr hb) hneg
  nlinarith

theorem Dominant.regular {n : ℕ} {a b c : ℕ → ℝ} (hd : Dominant n a b c) : Regular n a b c := by
  intro T h i hi
  have h1 := nonneg hd (T := T) (fun j hj => (h j hj).ge) i hi
  have h2 := nonneg hd (T := fun j => -1 * T j)
    (fun j hj => by rw [row_smul, h j hj]; simp) i hi
  linarith

/-- The matrix as a linear map. -/
def lin (n : ℕ) (a b c : ℕ → ℝ) : (Fin n → ℝ) →ₗ[ℝ] (Fin n → ℝ) where
  toFun T := fun i => row n a b c (fun j => if h : j < n then T ⟨j, h⟩ else 0) i
  map_add' T U := by
    funext i
    rw [show (fun j => if h : j < n then (T + U) ⟨j, h⟩ else 0)
      = fun j => (if h : j < n then T ⟨j, h⟩ else 0) + (if h : j < n then U ⟨j, h⟩ else 0) from by
        funext j; split <;> simp, row_add]
    rfl
  map_smul' k T := by
    funext i
    rw [show (fun j => if h : j < n then (k • T) ⟨j, h⟩ else 0)
      = fun j => k * (if h : j < n then T ⟨j, h⟩ else 0) from by funext j; split <;> simp, row_smul]
    rfl

/-- A regular system has a solution. -/
theorem Regular.exists_solution {n : ℕ} {a b c : ℕ → ℝ} (hr : Regular n a b c) (d : ℕ → ℝ) :
    ∃ T, Solves n a b c d T ∧ ∀ i, n ≤ i → T i = 0 := by
  have hinj : Function.Injective (lin n a b c) := by
    rw [← LinearMap.ker_eq_bot, LinearMap.ker_eq_bot']
    intro T hT
    funext i
    have := hr (fun j => if h : j < n then T ⟨j, h⟩ else 0)
      (fun j hj => by have := congrFun hT ⟨j, hj⟩; exact this) i i.2
    simpa using this
  obtain ⟨T, hT⟩ := (LinearMap.injective_iff_surjective.mp hinj) (fun i => d i)
  exact ⟨fun j => if h : j < n then T ⟨j, h⟩ else 0,
    fun i hi => by have := congrFun hT ⟨i, hi⟩; exact this, fun i hi => dif_neg (by omega)⟩

theorem Solves.unique {n : ℕ} {a b c d T U : ℕ → ℝ} (hr : Regular n a b c)
    (hT : Solves n a b c d T) (hU : Solves n a b c d U) : ∀ i < n, T i = U i := by
  intro i hi
  have := hr (fun j => T j + -1 * U j) (fun j hj => by
    rw [row_add, row_smul, hT j hj, hU j hj]; ring) i hi
  linarith

open Classical in
/-- An exact solver (shows that `Exact` can be met). -/
noncomputable def exactSolver (n : ℕ) (a b c d : ℕ → ℝ) : Except PyErr (ℕ → ℝ) :=
  if h : Regular n a b c then .ok (Regular.exists_solution h d).choose else .error .other

theorem exactSolver_exact : Exact exactSolver where
  sound n a b c d T h := by
    unfold exactSolver at h
    split at h
    · rename_i hr
      cases h
      exact (Regular.exists_solution hr d).choose_spec
    · cases h
  total n a b c d hr := ⟨_, dif_pos hr⟩
  regular n a b c d T h := by
    unfold exactSolver at h
    split at h
    · assumption
    · cases h

end Verif.Lemmas.Tridiag
