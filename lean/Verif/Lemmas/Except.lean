import Verif.Py.Table
import Mathlib.Tactic.Common

/-! # Lemmas about `Except` programs -/

namespace Verif.Py

theorem bind_ok {ε α β : Type} (x : α) (f : α → Except ε β) : (Except.ok x >>= f) = f x := rfl
theorem bind_error {ε α β : Type} (e : ε) (f : α → Except ε β) :
    ((Except.error e : Except ε α) >>= f) = .error e := rfl
theorem pure_ok {ε α : Type} (x : α) : (pure x : Except ε α) = .ok x := rfl

theorem bind_eq_ok {ε α β : Type} {x : Except ε α} {f : α → Except ε β} {b : β} :
    (x >>= f) = .ok b ↔ ∃ a, x = .ok a ∧ f a = .ok b := by
  cases x with
  | error e => simp [bind_error]
  | ok a => simp [bind_ok]

theorem at'_eq_ok {F : Type} {t : Table F} {c : String} {y : Int} {v : F} :
    t.at' c y = .ok v ↔ c ∈ t.cols ∧ t.val c y = some v := by
  unfold Table.at'
  by_cases hc : c ∈ t.cols
  · simp only [hc, if_true, true_and]
    cases hv : t.val c y <;> simp
  · simp [hc]

theorem at'_isOk {F : Type} (t : Table F) (c : String) (y : Int) :
    (∃ v, t.at' c y = .ok v) ↔ t.HasCell c y := by
  unfold Table.HasCell
  simp only [at'_eq_ok, Option.isSome_iff_exists]
  exact exists_and_left

theorem hasCell_setAt {F : Type} (t : Table F) (c : String) (y : Int) (v : F) (h : t.HasCell c y)
    (c' : String) (y' : Int) : (t.setAt c y v).HasCell c' y' ↔ t.HasCell c' y' := by
  unfold Table.HasCell Table.setAt
  simp only
  by_cases e : c' = c ∧ y' = y
  · obtain ⟨e1, e2⟩ := e; subst e1; subst e2
    simp [h.1, h.2]
  · simp [e]

section mapM
variable {C R : Type}

theorem mapM_ok {func : C → Except PyErr R} {cs : List C} {rs : List R} :
    cs.mapM func = .ok rs ↔ cs.map func = rs.map Except.ok := by
  induction cs generalizing rs with
  | nil =>
    simp only [List.mapM_nil, pure_ok, Except.ok.injEq, List.map_nil]
    constructor
    · rintro rfl; rfl
    · intro h; exact (List.map_eq_nil_iff.1 h.symm).symm
  | cons c cs ih =>
    rw [List.mapM_cons, bind_eq_ok]
    constructor
    · rintro ⟨r, h1, h2⟩
      rw [bind_eq_ok] at h2
      obtain ⟨rs', h3, h4⟩ := h2
      rw [pure_ok, Except.ok.injEq] at h4
      rw [← h4, List.map_cons, List.map_cons, h1, ih.1 h3]
    · intro h
      cases rs with
      | nil => simp at h
      | cons r rs =>
        rw [List.map_cons, List.map_cons, List.cons.injEq] at h
        refine ⟨r, h.1, ?_⟩
        rw [ih.2 h.2]; rfl

theorem mapM_error {func : C → Except PyErr R} {cs : List C} {e : PyErr}
    (h : cs.mapM func = .error e) : ∃ c ∈ cs, func c = .error e := by
  induction cs with
  | nil => simp [pure_ok] at h
  | cons c cs ih =>
    rw [List.mapM_cons] at h
    cases hc : func c with
    | error e' =>
      rw [hc, bind_error] at h
      refine ⟨c, by simp, ?_⟩
      rw [hc, Except.error.inj h]
    | ok r =>
      rw [hc, bind_ok] at h
      cases hm : cs.mapM func with
      | error e' =>
        rw [hm, bind_error] at h
        obtain ⟨c', h1, h2⟩ := ih (by rw [hm]; exact h)
        exact ⟨c', by simp [h1], h2⟩
      | ok rs => rw [hm, bind_ok, pure_ok] at h; cases h

theorem mapM_ok_or (func : C → Except PyErr R) (cs : List C) :
    (∃ rs, cs.mapM func = .ok rs) ∨ ∃ e, cs.mapM func = .error e := by
  cases h : cs.mapM func with
  | error e => exact .inr ⟨e, rfl⟩
  | ok rs => exact .inl ⟨rs, rfl⟩

end mapM

end Verif.Py
