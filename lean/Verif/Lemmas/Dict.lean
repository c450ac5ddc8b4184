import Verif.Py.Dict
import Mathlib.Data.List.Basic
import Mathlib.Data.List.Nodup
import Mathlib.Tactic.Common

/-! # Lemmas about ordered dictionaries -/

namespace Verif.Py.Dict
variable {V : Type}

theorem get?_nil (k : String) : get? ([] : Dict V) k = none := rfl

theorem get?_cons (k' : String) (v : V) (d : Dict V) (k : String) :
    get? ((k', v) :: d) k = if k' = k then some v else get? d k := rfl

theorem has_iff (d : Dict V) (k : String) : has d k = true ↔ k ∈ keys d := by
  induction d with
  | nil => simp [has, get?, keys]
  | cons p d ih =>
    obtain ⟨k', v⟩ := p
    by_cases h : k' = k
    · simp [has, get?, keys, h]
    · have h' : ¬ k = k' := fun e => h e.symm
      simp only [has, get?, keys, if_neg h, List.map_cons, List.mem_cons, h', false_or] at ih ⊢
      exact ih

theorem get?_isSome_iff (d : Dict V) (k : String) : (∃ v, get? d k = some v) ↔ k ∈ keys d := by
  rw [← has_iff, has, Option.isSome_iff_exists]

theorem get?_eq_none_iff (d : Dict V) (k : String) : get? d k = none ↔ k ∉ keys d := by
  rw [← has_iff, has]
  cases get? d k <;> simp

theorem get?_set (d : Dict V) (k : String) (v : V) (k' : String) :
    get? (set d k v) k' = if k = k' then some v else get? d k' := by
  induction d with
  | nil => simp [set, get?]
  | cons p d ih =>
    obtain ⟨k₁, v₁⟩ := p
    by_cases h : k₁ = k
    · subst h
      by_cases h2 : k₁ = k' <;> simp [set, get?, h2]
    · by_cases h2 : k₁ = k'
      · subst h2
        have h3 : ¬ k = k₁ := fun e => h e.symm
        simp [set, get?, h, h3]
      · simp [set, get?, h, h2, ih]

theorem has_set (d : Dict V) (k : String) (v : V) (k' : String) :
    has (set d k v) k' = (decide (k = k') || has d k') := by
  simp only [has, get?_set]
  by_cases h : k = k' <;> simp [h]

theorem keys_set (d : Dict V) (k : String) (v : V) :
    keys (set d k v) = if k ∈ keys d then keys d else keys d ++ [k] := by
  induction d with
  | nil => simp [set, keys]
  | cons p d ih =>
    obtain ⟨k₁, v₁⟩ := p
    by_cases h : k₁ = k
    · subst h; simp [set, keys]
    · have h3 : ¬ k = k₁ := fun e => h e.symm
      have : keys (set ((k₁, v₁) :: d) k v) = k₁ :: keys (set d k v) := by simp [set, h, keys]
      rw [this, ih]
      by_cases h4 : k ∈ keys d
      · have : k ∈ keys ((k₁, v₁) :: d) := by simp [keys] at h4 ⊢; exact Or.inr h4
        rw [if_pos h4, if_pos this]; rfl
      · have : k ∉ keys ((k₁, v₁) :: d) := by
          simp only [keys, List.map_cons, List.mem_cons, not_or]; exact ⟨h3, h4⟩
        rw [if_neg h4, if_neg this]; rfl

theorem mem_keys_set (d : Dict V) (k : String) (v : V) (k' : String) :
    k' ∈ keys (set d k v) ↔ k' = k ∨ k' ∈ keys d := by
  rw [← has_iff, has_set, Bool.or_eq_true, has_iff, decide_eq_true_iff]
  exact or_congr_left ⟨Eq.symm, Eq.symm⟩

theorem keys_set_of_mem (d : Dict V) (k : String) (v : V) (h : k ∈ keys d) :
    keys (set d k v) = keys d := by rw [keys_set, if_pos h]

theorem WF_set (d : Dict V) (k : String) (v : V) (h : WF d) : WF (set d k v) := by
  unfold WF at *
  rw [keys_set]
  split
  · exact h
  · rename_i hk
    rw [List.nodup_append]
    refine ⟨h, List.nodup_singleton _, ?_⟩
    intro a ha b hb
    simp only [List.mem_singleton] at hb
    subst hb
    intro e; subst e; exact hk ha

theorem WF_nil : WF ([] : Dict V) := by simp [WF, keys]

theorem WF_cons {k : String} {v : V} {d : Dict V} : WF ((k, v) :: d) ↔ k ∉ keys d ∧ WF d := by
  simp [WF, keys]

theorem get?_of_mem {d : Dict V} (h : WF d) {k : String} {v : V} (hm : (k, v) ∈ d) :
    get? d k = some v := by
  induction d with
  | nil => cases hm
  | cons p d ih =>
    obtain ⟨k₁, v₁⟩ := p
    rw [WF_cons] at h
    rcases List.mem_cons.1 hm with e | hm
    · cases e; simp [get?]
    · have : k₁ ≠ k := by
        intro e; subst e
        exact h.1 (List.mem_map.2 ⟨(k₁, v), hm, rfl⟩)
      simp [get?, this, ih h.2 hm]

theorem mem_of_get? {d : Dict V} {k : String} {v : V} (h : get? d k = some v) : (k, v) ∈ d := by
  induction d with
  | nil => cases h
  | cons p d ih =>
    obtain ⟨k₁, v₁⟩ := p
    by_cases e : k₁ = k
    · subst e
      simp [get?] at h; subst h; simp
    · simp [get?, e] at h
      exact List.mem_cons_of_mem _ (ih h)

theorem get?_filter_key (d : Dict V) (p : String → Bool) (k : String) :
    get? (d.filter (fun q => p q.1)) k = if p k then get? d k else none := by
  induction d with
  | nil => simp [get?]
  | cons q d ih =>
    obtain ⟨k₁, v₁⟩ := q
    by_cases hp : p k₁
    · rw [List.filter_cons_of_pos (by simpa using hp), get?_cons, get?_cons, ih]
      by_cases e : k₁ = k
      · subst e; simp [hp]
      · simp [e]
    · rw [List.filter_cons_of_neg (by simpa using hp), get?_cons, ih]
      by_cases e : k₁ = k
      · subst e; simp [hp]
      · simp [e]

theorem get?_erase (d : Dict V) (k k' : String) :
    get? (erase d k) k' = if k' = k then none else get? d k' := by
  have := get?_filter_key d (fun x => decide (x ≠ k)) k'
  unfold erase
  rw [this]
  by_cases h : k' = k <;> simp [h]

theorem get?_append (d e : Dict V) (k : String) :
    get? (d ++ e) k = (get? d k).or (get? e k) := by
  induction d with
  | nil => simp [get?]
  | cons q d ih =>
    obtain ⟨k₁, v₁⟩ := q
    by_cases h : k₁ = k <;> simp [get?, h, ih]

/-- Folding `set` over pairs: the last matching pair wins. -/
theorem get?_update (d e : Dict V) (k : String) :
    get? (update d e) k = (get? e.reverse k).or (get? d k) := by
  unfold update
  induction e generalizing d with
  | nil => simp [get?]
  | cons q e ih =>
    obtain ⟨k₁, v₁⟩ := q
    rw [List.foldl_cons, ih, get?_set, List.reverse_cons, get?_append]
    cases get? e.reverse k <;> by_cases h : k₁ = k <;> simp [get?, h]

theorem keys_reverse_mem (d : Dict V) (k : String) : k ∈ keys d.reverse ↔ k ∈ keys d := by
  simp [keys]

theorem mem_keys_update (d e : Dict V) (k : String) :
    k ∈ keys (update d e) ↔ k ∈ keys d ∨ k ∈ keys e := by
  rw [← get?_isSome_iff, get?_update]
  constructor
  · rintro ⟨v, hv⟩
    rw [Option.or_eq_some_iff] at hv
    rcases hv with hv | ⟨_, hv⟩
    · exact Or.inr ((keys_reverse_mem e k).1 ((get?_isSome_iff _ _).1 ⟨v, hv⟩))
    · exact Or.inl ((get?_isSome_iff _ _).1 ⟨v, hv⟩)
  · intro h
    by_cases he : k ∈ keys e
    · obtain ⟨v, hv⟩ := (get?_isSome_iff _ _).2 ((keys_reverse_mem e k).2 he)
      exact ⟨v, by simp [hv]⟩
    · obtain ⟨v, hv⟩ := (get?_isSome_iff _ _).2 (h.resolve_right he)
      have : get? e.reverse k = none := by
        rw [get?_eq_none_iff, keys_reverse_mem]; exact he
      exact ⟨v, by simp [this, hv]⟩

theorem get?_reverse_of_WF {d : Dict V} (h : WF d) (k : String) :
    get? d.reverse k = get? d k := by
  have hr : WF d.reverse := by
    unfold WF keys at *
    rw [List.map_reverse]; exact List.nodup_reverse.2 h
  cases hk : get? d k with
  | none =>
    rw [get?_eq_none_iff] at hk ⊢
    rw [keys_reverse_mem]; exact hk
  | some v =>
    exact get?_of_mem hr (by simpa using mem_of_get? hk)

end Verif.Py.Dict
