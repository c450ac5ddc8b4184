import Verif.Py.Frame
import Verif.Lemmas.Except
import Mathlib.Data.Int.Notation
import Mathlib.Data.Nat.Notation
import Mathlib.Tactic.Common
import Mathlib.Data.List.Nodup

/-! # Lemmas about frames, slices and year ranges -/

namespace Verif.Py

theorem pyRange_length (a b : ℤ) : (pyRange a b).length = (b - a).toNat := by
  simp [pyRange]

theorem mem_pyRange {a b y : ℤ} : y ∈ pyRange a b ↔ a ≤ y ∧ y < b := by
  unfold pyRange
  rw [List.mem_map]
  constructor
  · rintro ⟨k, hk, rfl⟩
    rw [List.mem_range] at hk
    omega
  · rintro ⟨h1, h2⟩
    refine ⟨(y - a).toNat, ?_, ?_⟩
    · rw [List.mem_range]; omega
    · omega

theorem pyRange_nodup (a b : ℤ) : (pyRange a b).Nodup := by
  unfold pyRange
  refine List.Nodup.map ?_ List.nodup_range
  intro x y h
  simp only at h
  omega

theorem pyRange_empty {a b : ℤ} (h : b ≤ a) : pyRange a b = [] := by
  unfold pyRange
  have : (b - a).toNat = 0 := by omega
  rw [this]; rfl

theorem pyRange_cons {a b : ℤ} (h : a < b) : pyRange a b = a :: pyRange (a + 1) b := by
  unfold pyRange
  have : (b - a).toNat = (b - (a + 1)).toNat + 1 := by omega
  rw [this, List.range_succ_eq_map, List.map_cons, List.map_map]
  congr 1
  · simp
  · apply List.map_congr_left
    intro k _
    simp only [Function.comp]
    push_cast
    omega

theorem pyRange_append {a b c : ℤ} (h1 : a ≤ b) (h2 : b ≤ c) :
    pyRange a b ++ pyRange b c = pyRange a c := by
  unfold pyRange
  have : (c - a).toNat = (b - a).toNat + (c - b).toNat := by omega
  rw [this, List.range_add, List.map_append, List.map_map]
  congr 1
  apply List.map_congr_left
  intro k _
  simp only [Function.comp]
  push_cast
  omega

theorem pyRange_succ_right {a b : ℤ} (h : a ≤ b) : pyRange a (b + 1) = pyRange a b ++ [b] := by
  rw [← pyRange_append h (Int.le_of_lt (Int.lt_succ b)), pyRange_cons (Int.lt_succ b),
    pyRange_empty (Int.le_refl _)]

theorem pyRange_take (a b : ℤ) (n : ℕ) : (pyRange a b).take n = pyRange a (min b (a + n)) := by
  unfold pyRange
  rw [← List.map_take, List.take_range]
  congr 2
  omega

theorem pyRange_drop (a b : ℤ) (n : ℕ) : (pyRange a b).drop n = pyRange (a + n) b := by
  by_cases h : a + n ≤ b
  · have h2 : (pyRange a b) = pyRange a (a + n) ++ pyRange (a + n) b :=
      (pyRange_append (by omega) h).symm
    rw [h2, List.drop_append_of_le_length]
    · rw [List.drop_of_length_le]
      · rfl
      · rw [pyRange_length]; omega
    · rw [pyRange_length]; omega
  · rw [pyRange_empty (a := a + n) (by omega), List.drop_of_length_le]
    rw [pyRange_length]; omega

/-- Positional slices of a contiguous index are label ranges, as long as the slice does not start
before the index. -/
theorem pySlice_pyRange {i j a b : ℤ} (h1 : i ≤ a) (h2 : i ≤ b) :
    pySlice (pyRange i j) (a - i) (b - i) = pyRange a (min b j) := by
  unfold pySlice sliceBound
  rw [if_neg (by omega), if_neg (by omega), pyRange_take, pyRange_length, pyRange_drop]
  by_cases hab : a < min b j
  · congr 1 <;> omega
  · rw [pyRange_empty (by omega), pyRange_empty (by omega)]

theorem lookup_map_pyRange {α : Type} (f : ℤ → α) (a b y : ℤ) :
    ((pyRange a b).map (fun y => (y, f y))).lookup y = if a ≤ y ∧ y < b then some (f y) else none := by
  have key : ∀ (n : ℕ) (a : ℤ), (b - a).toNat = n →
      ((pyRange a b).map (fun y => (y, f y))).lookup y =
        if a ≤ y ∧ y < b then some (f y) else none := by
    intro n
    induction n with
    | zero =>
      intro a hn
      rw [pyRange_empty (by omega), if_neg (by omega)]
      rfl
    | succ n ih =>
      intro a hn
      rw [pyRange_cons (by omega), List.map_cons, List.lookup_cons, ih (a + 1) (by omega)]
      by_cases hy : y = a
      · subst hy
        simp only [beq_self_eq_true]
        rw [if_pos (by omega)]
      · have : (y == a) = false := by simpa using hy
        rw [this]
        simp only
        by_cases h : a + 1 ≤ y ∧ y < b
        · rw [if_pos h, if_pos (by omega)]
        · rw [if_neg h, if_neg (by omega)]
  exact key _ a rfl

theorem frame_at'_eq_ok {F : Type} {t : Frame F} {c : String} {y : ℤ} {v : F} :
    t.at' c y = .ok v ↔ c ∈ t.cols ∧ y ∈ t.idx ∧ t.cell c y = v := by
  unfold Frame.at'
  by_cases h : c ∈ t.cols ∧ y ∈ t.idx
  · rw [if_pos h]
    constructor
    · intro e; exact ⟨h.1, h.2, by simpa using e⟩
    · rintro ⟨_, _, e⟩; rw [e]
  · rw [if_neg h]
    constructor
    · intro e; cases e
    · rintro ⟨a, b, _⟩; exact absurd ⟨a, b⟩ h

end Verif.Py
