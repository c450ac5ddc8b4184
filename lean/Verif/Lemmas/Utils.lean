import Verif.Model.Utils
import Verif.Lemmas.Dict

namespace Verif.Model
open Verif.Py Verif.Py.Dict

variable {F : Type}

theorem get?_checkNumericStep (d : Dict (PyVal F)) (p : String × PyVal F) (k : String) :
    get? (checkNumericStep d p) k =
      if p.1 = k then
        (match get? d k with | some v => if v.isNum then some v else some p.2 | none => some p.2)
      else get? d k := by
  unfold checkNumericStep
  by_cases h : p.1 = k
  · subst h
    cases hv : get? d p.1 with
    | none => simp [get?_set]
    | some v =>
      by_cases hn : v.isNum
      · simp [hn, hv]
      · simp [hn, get?_set]
  · cases hv : get? d p.1 with
    | none => simp [get?_set, h]
    | some v => by_cases hn : v.isNum <;> simp [hn, get?_set, h]

theorem get?_checkNumericPamset {req : Dict (PyVal F)} (hr : WF req) (d : Dict (PyVal F))
    (k : String) :
    get? (checkNumericPamset req d) k =
      match get? req k with
      | some dflt =>
        (match get? d k with | some v => if v.isNum then some v else some dflt | none => some dflt)
      | none => get? d k := by
  unfold checkNumericPamset
  induction req generalizing d with
  | nil => simp [get?]
  | cons p req ih =>
    obtain ⟨k₁, v₁⟩ := p
    rw [WF_cons] at hr
    rw [List.foldl_cons, ih hr.2, get?_checkNumericStep, get?_cons]
    by_cases h : k₁ = k
    · subst h
      have : get? req k₁ = none := (get?_eq_none_iff _ _).2 hr.1
      simp [this]
    · simp [h]

theorem WF_checkNumericPamset (req d : Dict (PyVal F)) (h : WF d) :
    WF (checkNumericPamset req d) := by
  unfold checkNumericPamset
  induction req generalizing d with
  | nil => exact h
  | cons p req ih =>
    rw [List.foldl_cons]
    apply ih
    unfold checkNumericStep
    split
    · exact WF_set _ _ _ h
    · split
      · exact WF_set _ _ _ h
      · exact h

theorem cutNonRequired_aux (req d acc : Dict (PyVal F))
    (hd : WF d) (hdisj : ∀ k ∈ keys d, k ∉ keys acc) :
    d.foldl (fun new p => if req.has p.1 then new.set p.1 p.2 else new) acc
      = acc ++ d.filter (fun p => req.has p.1) := by
  induction d generalizing acc with
  | nil => simp
  | cons p d ih =>
    obtain ⟨k₁, v₁⟩ := p
    rw [WF_cons] at hd
    have hk : k₁ ∉ keys acc := hdisj k₁ (by simp [keys])
    have hset : set acc k₁ v₁ = acc ++ [(k₁, v₁)] := by
      clear ih hdisj
      induction acc with
      | nil => simp [Dict.set]
      | cons q acc ih2 =>
        obtain ⟨k₂, v₂⟩ := q
        simp only [keys, List.map_cons, List.mem_cons, not_or] at hk
        have : ¬ k₂ = k₁ := fun e => hk.1 e.symm
        simp [Dict.set, this, ih2 hk.2]
    rw [List.foldl_cons]
    by_cases hreq : has req k₁
    · rw [if_pos (by simpa using hreq), List.filter_cons_of_pos (by simpa using hreq), hset, ih _ hd.2]
      · simp
      · intro k hkm
        simp only [keys, List.map_append, List.map_cons, List.map_nil, List.mem_append,
          List.mem_singleton, not_or]
        refine ⟨hdisj k (by simp [keys] at hkm ⊢; exact Or.inr hkm), ?_⟩
        intro e; subst e; exact hd.1 hkm
    · rw [if_neg (by simpa using hreq), List.filter_cons_of_neg (by simpa using hreq), ih _ hd.2]
      intro k hkm
      exact hdisj k (by simp [keys] at hkm ⊢; exact Or.inr hkm)

theorem cutNonRequired_eq_filter (req d : Dict (PyVal F)) (hd : WF d) :
    cutNonRequired req d = d.filter (fun p => req.has p.1) := by
  unfold cutNonRequired
  rw [cutNonRequired_aux req d [] hd (by simp [keys])]
  simp

theorem get?_cutNonRequired (req d : Dict (PyVal F)) (hd : WF d) (k : String) :
    get? (cutNonRequired req d) k = if k ∈ keys req then get? d k else none := by
  rw [cutNonRequired_eq_filter _ _ hd, get?_filter_key]
  by_cases h : k ∈ keys req
  · simp [h, (has_iff req k).2 h]
  · have : ¬ has req k = true := fun e => h ((has_iff req k).1 e)
    simp [h, this]

theorem WF_filter (d : Dict (PyVal F)) (p : String × PyVal F → Bool) (h : WF d) :
    WF (d.filter p) := by
  unfold WF keys at *
  exact (List.Sublist.map _ List.filter_sublist).nodup h

theorem mem_keys_usedKeys (req used : Dict (PyVal F)) (k : String) :
    k ∈ keys (usedKeys req used) ↔ k ∈ keys used ∨ k ∈ keys req := by
  unfold usedKeys
  cases used with
  | nil => simp [keys]
  | cons p u => simp only [List.isEmpty_cons, Bool.false_eq_true, if_false]; rw [mem_keys_update]

theorem WF_cutAndCheck (req d used : Dict (PyVal F)) (h : WF d) :
    WF (cutAndCheckPamset req d used) := by
  unfold cutAndCheckPamset
  apply WF_checkNumericPamset
  rw [cutNonRequired_eq_filter _ _ h]
  exact WF_filter _ _ h

/-- If all required keys are present and numeric, `check_numeric_pamset` changes nothing. -/
theorem checkNumericPamset_id (req d : Dict (PyVal F))
    (h : ∀ k ∈ keys req, ∃ v, get? d k = some v ∧ v.isNum = true) :
    checkNumericPamset req d = d := by
  unfold checkNumericPamset
  induction req with
  | nil => rfl
  | cons p req ih =>
    obtain ⟨k₁, v₁⟩ := p
    rw [List.foldl_cons]
    obtain ⟨v, hv, hn⟩ := h k₁ (by simp [keys])
    have : checkNumericStep d (k₁, v₁) = d := by simp [checkNumericStep, hv, hn]
    rw [this]
    exact ih (fun k hk => h k (by simp [keys] at hk ⊢; exact Or.inr hk))

theorem keys_updatePamStep (cc : List String) (d : Dict (PyVal F)) (p : String × PyVal F) :
    keys (updatePamStep cc d p) = keys d := by
  unfold updatePamStep
  split
  · rfl
  · split
    · rfl
    · rename_i h _
      apply keys_set_of_mem
      simp only [Bool.or_eq_true, Bool.not_eq_true', not_or, Bool.not_eq_false] at h
      exact (has_iff _ _).1 h.2

theorem keys_updatePam_foldl (cc : List String) (new d : Dict (PyVal F)) :
    keys (new.foldl (updatePamStep cc) d) = keys d := by
  induction new generalizing d with
  | nil => rfl
  | cons p new ih => rw [List.foldl_cons, ih, keys_updatePamStep]

theorem get?_updatePamStep (cc : List String) (d : Dict (PyVal F)) (p : String × PyVal F)
    (k : String) :
    get? (updatePamStep cc d p) k =
      if p.1 = k ∧ p.1 ∈ cc ∧ p.1 ∈ keys d ∧ p.2.isNum = true then some p.2 else get? d k := by
  unfold updatePamStep
  have hc : cc.contains p.1 = true ↔ p.1 ∈ cc := by simp
  have hh := has_iff d p.1
  by_cases h1 : p.1 ∈ cc <;> by_cases h2 : p.1 ∈ keys d <;> by_cases h3 : p.2.isNum = true <;>
    by_cases h4 : p.1 = k <;> simp_all [get?_set]

theorem get?_updatePam_foldl (cc : List String) {new : Dict (PyVal F)} (hn : WF new)
    (d : Dict (PyVal F)) (k : String) :
    get? (new.foldl (updatePamStep cc) d) k =
      match get? new k with
      | some n => if k ∈ cc ∧ k ∈ keys d ∧ n.isNum = true then some n else get? d k
      | none => get? d k := by
  induction new generalizing d with
  | nil => simp [get?]
  | cons p new ih =>
    obtain ⟨k₁, v₁⟩ := p
    rw [WF_cons] at hn
    rw [List.foldl_cons, ih hn.2, get?_cons, keys_updatePamStep, get?_updatePamStep]
    by_cases h : k₁ = k
    · subst h
      have : get? new k₁ = none := (get?_eq_none_iff _ _).2 hn.1
      simp [this]
    · simp [h]

end Verif.Model
