import Verif.Model.Handler
import Verif.Lemmas.Handler
import Verif.Lemmas.Utils

/-! # The parameters in force after a reset -/

namespace Verif.Model.Handler
open Verif.Py Verif.Py.Dict Verif.Model

section
variable {F κ : Type} [Add F] [Sub F] [Mul F] [Div F] [Neg F] [OfScientific F] [LT F] [DecidableLT F]
  [MathFn F]

omit [Add F] [Sub F] [Mul F] [Div F] [Neg F] [OfScientific F] [LT F] [DecidableLT F] [MathFn F] in
theorem addMissing_get? (old new : Dict (PyVal F)) (k : String) :
    (addMissing old new).get? k = (new.get? k).or (old.get? k) := by
  unfold addMissing
  induction old generalizing new with
  | nil => cases h : get? new k <;> simp [h, get?_nil]
  | cons p old ih =>
    rw [List.foldl_cons, ih]
    by_cases hp : new.has p.1 = true
    · rw [if_pos hp]
      by_cases hk : p.1 = k
      · subst hk
        obtain ⟨v, hv⟩ := (get?_isSome_iff _ _).2 ((has_iff _ _).1 hp)
        rw [hv]; rfl
      · obtain ⟨a, b⟩ := p; rw [get?_cons, if_neg hk]
    · rw [if_neg hp, get?_set]
      by_cases hk : p.1 = k
      · subst hk
        have : new.get? p.1 = none := (get?_eq_none_iff _ _).2 (fun h => hp ((has_iff _ _).2 h))
        rw [this]
        obtain ⟨a, b⟩ := p; simp [get?_cons]
      · rw [if_neg hk]
        obtain ⟨a, b⟩ := p; rw [get?_cons, if_neg hk]

/-- The value a frozen parameter keeps: the new one if it is equal to the old one, else the old one. -/
def keptValue (v o : PyVal F) : PyVal F := if PyVal.pyEq v o then v else o

omit [Add F] [Sub F] [Mul F] [Div F] [Neg F] [OfScientific F] [LT F] [DecidableLT F] in
theorem keepOld_fold {old : Dict (PyVal F)} : ∀ (ks : List String) (new r : Dict (PyVal F)), ks.Nodup →
    ks.foldlM (keepOldStep old) new = .ok r →
    ∀ k, r.get? k = if k ∈ ks then
        (match new.get? k with
         | none => none
         | some v => (old.get? k).map (keptValue v))
      else new.get? k
  | [], new, r, _, h, k => by
    rw [foldlM_nil_ok] at h
    subst h
    simp
  | a :: ks, new, r, hnd, h, k => by
    rw [foldlM_cons_ok] at h
    obtain ⟨m, hm, h⟩ := h
    rw [List.nodup_cons] at hnd
    have ih := keepOld_fold ks m r hnd.2 h k
    have hm' : ∀ k, m.get? k = if k = a then
        (match new.get? k with
         | none => none
         | some v => (old.get? k).map (keptValue v)) else new.get? k := by
      intro k
      unfold keepOldStep at hm
      split at hm
      · rename_i hn
        rw [Except.ok.injEq] at hm
        subst hm
        by_cases hk : k = a
        · subst hk; rw [if_pos rfl, hn]
        · rw [if_neg hk]
      · rename_i v hn
        rw [bind_eq_ok] at hm
        obtain ⟨o, ho, hm⟩ := hm
        have ho' : old.get? a = some o := by
          unfold Dict.getE at ho
          split at ho
          · rename_i w hw; rw [hw]; simpa using ho
          · cases ho
        by_cases he : PyVal.pyEq v o = true
        · rw [if_pos he, Except.ok.injEq] at hm
          subst hm
          by_cases hk : k = a
          · subst hk; rw [if_pos rfl, hn, ho']; simp [keptValue, he]
          · rw [if_neg hk]
        · rw [if_neg he, Except.ok.injEq] at hm
          subst hm
          rw [get?_set]
          by_cases hk : k = a
          · subst hk; rw [if_pos rfl, if_pos rfl, hn, ho']; simp [keptValue, he]
          · rw [if_neg hk, if_neg (fun e => hk e.symm)]
    rw [ih, hm']
    by_cases hk : k = a
    · subst hk
      simp [hnd.1]
    · simp [hk]

omit [Add F] [Sub F] [Mul F] [Div F] [Neg F] [OfScientific F] [LT F] [DecidableLT F] in
/-- The parameters in force after `check_pamset_consistency`. -/
theorem consistency_get? {old new r : Dict (PyVal F)} (h : checkPamsetConsistency old new = .ok r)
    (k : String) : r.get? k =
      if k ∈ pamsCantChange then
        (match new.get? k with
         | none => old.get? k
         | some v => (old.get? k).map (keptValue v))
      else (new.get? k).or (old.get? k) := by
  unfold checkPamsetConsistency at h
  rw [bind_eq_ok] at h
  obtain ⟨m, hm, h⟩ := h
  rw [pure_ok, Except.ok.injEq] at h
  subst h
  rw [addMissing_get?, keepOld_fold _ _ _ (by decide) hm]
  by_cases hk : k ∈ pamsCantChange
  · rw [if_pos hk, if_pos hk]
    cases new.get? k with
    | none => rfl
    | some v => cases old.get? k <;> rfl
  · rw [if_neg hk, if_neg hk]

omit [Add F] [Sub F] [Mul F] [Div F] [Neg F] [LT F] [DecidableLT F] [MathFn F] in
/-- `avoid_regional_double_counting` only touches the three global aerosol parameters. -/
theorem avoid_get? (gases : List String) (pam : Dict (PyVal F)) (k : String)
    (hk : k ∉ globalAerosols.map Prod.snd) :
    (avoidRegionalDoubleCounting gases pam).get? k = pam.get? k := by
  unfold avoidRegionalDoubleCounting
  have key : ∀ (l : List (String × String)) (p : Dict (PyVal F)), k ∉ l.map Prod.snd →
      (l.foldl (fun p a => if gases.any (fun comp => (a.1 ++ "_").toList.isPrefixOf comp.toList) then
        Dict.set p a.2 (.flt 0.0) else p) p).get? k = p.get? k := by
    intro l
    induction l with
    | nil => intro p _; rfl
    | cons a l ih =>
      intro p hl
      rw [List.map_cons, List.mem_cons, not_or] at hl
      rw [List.foldl_cons, ih _ hl.2]
      split
      · rw [get?_set, if_neg (fun e => hl.1 e.symm)]
      · rfl
  exact key _ _ hk

theorem reset_spec {ops : CarbonOps F κ} {h h' : Handler F κ} {p q : Option (Dict (PyVal F))}
    (e : resetWithNewPams ops h p q = .ok h') :
    ∃ pam c, checkPamsetConsistency h.pam (Factory.checkPamset p) = .ok pam ∧
      ops.reset h.carbon q = .ok c ∧
      h' = { h with pam := avoidRegionalDoubleCounting h.gas.keys pam, carbon := c,
                    concKeys := concKeysOf h.gas h.prec.spicy, conc := fun _ _ => none,
                    forcKeys := forcKeysOf h.prec.spicy, forc := fun _ _ => 0.0 } := by
  unfold resetWithNewPams at e
  rw [bind_eq_ok] at e
  obtain ⟨pam, hp, e⟩ := e
  unfold resetArrays at e
  rw [bind_eq_ok] at e
  obtain ⟨c, hc, e⟩ := e
  rw [pure_ok, Except.ok.injEq] at e
  exact ⟨pam, c, hp, hc, e.symm⟩

end
end Verif.Model.Handler
