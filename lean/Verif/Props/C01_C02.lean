import Verif.Lemmas.Utils
import Verif.Spec.Pamset

/-!
# C01, C02: sanitising and updating parameter sets (`_utils.py`)

`Dict.WF` says that the keys are distinct, which every Python `dict` satisfies.
All theorems hold for every number type `F`.
-/

namespace Verif.Props
open Verif.Py Verif.Py.Dict Verif.Model Verif.Spec

variable {F : Type}

/-- C01 (complete characterisation): the value of any key `k` in the sanitised set is the value the
specification prescribes. -/
theorem C01_value (req user used : Dict (PyVal F)) (hreq : WF req) (huser : WF user) (k : String) :
    get? (cutAndCheckPamset req user used) k =
      sanitisedValue (get? user k) (get? req k) (k ∈ keys used) := by
  unfold cutAndCheckPamset sanitisedValue
  rw [get?_checkNumericPamset hreq, get?_cutNonRequired _ _ huser]
  simp only [mem_keys_usedKeys]
  cases hk : get? req k with
  | none =>
    have : k ∉ keys req := (get?_eq_none_iff _ _).1 hk
    simp [this]
  | some d =>
    have : k ∈ keys req := (get?_isSome_iff _ _).1 ⟨d, hk⟩
    simp only [this, or_true, if_true]
    cases get? user k <;> rfl

/-- C01: the result is again a dictionary with distinct keys. -/
theorem C01_wf (req user used : Dict (PyVal F)) (huser : WF user) :
    WF (cutAndCheckPamset req user used) := WF_cutAndCheck _ _ _ huser

/-- C01: every required parameter is present and, when the defaults are numbers, numeric. -/
theorem C01_complete (req user used : Dict (PyVal F)) (hreq : WF req) (huser : WF user)
    (hnum : ∀ k v, get? req k = some v → v.isNum = true) (k : String) (hk : k ∈ keys req) :
    ∃ v, get? (cutAndCheckPamset req user used) k = some v ∧ v.isNum = true := by
  obtain ⟨d, hd⟩ := (get?_isSome_iff _ _).2 hk
  rw [C01_value req user used hreq huser, hd]
  unfold sanitisedValue
  cases hu : get? user k with
  | none => exact ⟨d, rfl, hnum k d hd⟩
  | some v =>
    by_cases hn : v.isNum = true
    · exact ⟨v, by simp [hn], hn⟩
    · exact ⟨d, by simp [hn], hnum k d hd⟩

/-- C01: a key that is neither required nor an allowed optional key does not survive. -/
theorem C01_nothing_else (req user used : Dict (PyVal F)) (hreq : WF req) (huser : WF user)
    (k : String) (h1 : k ∉ keys req) (h2 : k ∉ keys used) :
    k ∉ keys (cutAndCheckPamset req user used) := by
  rw [← get?_eq_none_iff, C01_value req user used hreq huser, (get?_eq_none_iff _ _).2 h1]
  simp [sanitisedValue, h2]

/-- C01: sanitising is idempotent (as an ordered dictionary). -/
theorem C01_idempotent (req user used : Dict (PyVal F)) (hreq : WF req) (huser : WF user)
    (hnum : ∀ k v, get? req k = some v → v.isNum = true) :
    cutAndCheckPamset req (cutAndCheckPamset req user used) used =
      cutAndCheckPamset req user used := by
  have hwf := C01_wf req user used huser
  have hcut : cutNonRequired (usedKeys req used) (cutAndCheckPamset req user used) =
      cutAndCheckPamset req user used := by
    rw [cutNonRequired_eq_filter _ _ hwf, List.filter_eq_self]
    intro p hp
    rw [has_iff, mem_keys_usedKeys]
    by_contra hc
    rw [not_or] at hc
    exact C01_nothing_else req user used hreq huser p.1 hc.2 hc.1
      (List.mem_map.2 ⟨p, hp, rfl⟩)
  have h2 : checkNumericPamset req (cutAndCheckPamset req user used) =
      cutAndCheckPamset req user used :=
    checkNumericPamset_id _ _ (fun k hk => C01_complete req user used hreq huser hnum k hk)
  conv_lhs => rw [cutAndCheckPamset, hcut]
  exact h2

/-- C02 (complete characterisation): the value of any key after an update. -/
theorem C02_value (old new : Dict (PyVal F)) (hnew : WF new) (cc : List String) (k : String) :
    get? (updatePamIfNumeric old (some new) cc) k =
      updatedValue (get? old k) (get? new k) (k ∈ cc) := by
  simp only [updatePamIfNumeric]
  rw [get?_updatePam_foldl cc hnew]
  unfold updatedValue
  cases ho : get? old k with
  | none =>
    have : k ∉ keys old := (get?_eq_none_iff _ _).1 ho
    cases hn : get? new k <;> simp [this]
  | some o =>
    have : k ∈ keys old := (get?_isSome_iff _ _).1 ⟨o, ho⟩
    cases hn : get? new k <;> simp [this]

/-- C02: no key is added, removed or moved. -/
theorem C02_keys (old : Dict (PyVal F)) (new : Option (Dict (PyVal F))) (cc : List String) :
    keys (updatePamIfNumeric old new cc) = keys old := by
  cases new with
  | none => rfl
  | some new => exact keys_updatePam_foldl cc new old

/-- C02: updating with `None` changes nothing. -/
theorem C02_none (old : Dict (PyVal F)) (cc : List String) :
    updatePamIfNumeric old none cc = old := rfl

/-! ## Non-vacuity: a concrete case (numbers are integers here) -/

section Examples

/-- A required table, a messy user dictionary and a table of optional keys. -/
def exReq : Dict (PyVal Int) := [("qo3", .flt 5), ("ref_yr", .int 2010)]
def exUser : Dict (PyVal Int) :=
  [("typo", .int 1), ("ref_yr", .str "2010"), ("qo3", .bool true), ("just_one", .str "CO2")]
def exUsed : Dict (PyVal Int) := [("just_one", .str "CO2")]

example : WF exReq ∧ WF exUser ∧ (∀ k v, get? exReq k = some v → v.isNum = true) := by
  refine ⟨by decide, by decide, ?_⟩
  intro k v h
  simp only [exReq, get?] at h
  split at h
  · cases h; rfl
  · split at h
    · cases h; rfl
    · cases h

example : cutAndCheckPamset exReq exUser exUsed =
    [("ref_yr", .int 2010), ("qo3", .bool true), ("just_one", .str "CO2")] := by
  simp [cutAndCheckPamset, cutNonRequired, checkNumericPamset, checkNumericStep, usedKeys, exReq,
    exUser, exUsed, Dict.update, Dict.set, Dict.get?, Dict.has, PyVal.isNum]

example : updatePamIfNumeric exReq (some exUser) ["qo3", "ref_yr"] =
    [("qo3", .bool true), ("ref_yr", .int 2010)] := by
  simp [updatePamIfNumeric, updatePamStep, exReq, exUser, Dict.set, Dict.get?, Dict.has,
    PyVal.isNum]

end Examples

end Verif.Props
