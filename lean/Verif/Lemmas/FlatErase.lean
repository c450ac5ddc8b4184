import Verif.Lemmas.InputErase
import Verif.Lemmas.Except
import Verif.Model.CarbonInst

/-!
# Response parameters do not see other names
-/

namespace Verif.Lemmas.FlatErase
open Verif.Py Verif.Py.Dict Verif.Model Verif.Model.InputHandler Verif.Model.Flat

/-- A name that is no numbered response parameter and no response function. -/
structure Other (k : String) : Prop where
  flat : ∀ pre ∈ ["rb_coef", "rb_tim", "rs_coef", "rs_tim"], ¬ (pre.toList <+: k.toList)
  rs : "rs_function" ≠ k
  rb : "rb_function" ≠ k

section
variable {V : Type} {k : String}

theorem has_erase_other (d : Dict V) {a : String} (h : a ≠ k) : Dict.has (Dict.erase d k) a = Dict.has d a := by
  unfold Dict.has
  rw [get?_erase, if_neg h]

theorem erase_comm (d : Dict V) (a b : String) : Dict.erase (Dict.erase d a) b = Dict.erase (Dict.erase d b) a := by
  unfold Dict.erase
  rw [List.filter_filter, List.filter_filter]
  congr 1
  funext p
  exact Bool.and_comm _ _

variable (isNone : PVal V → Bool)

theorem Other.idx (h : Other k) {pre : String} (hp : pre ∈ ["rb_coef", "rb_tim", "rs_coef", "rs_tim"]) : idxOf pre k = none := by
  unfold idxOf
  simp only
  rw [if_neg]
  have := h.flat pre hp
  intro hc
  simp only [Bool.and_eq_true, List.isPrefixOf_iff_prefix] at hc
  exact this hc.1.1

theorem extract_erase (h : Other k) (d : Dict (PVal V)) {pre : String} (hp : pre ∈ ["rb_coef", "rb_tim", "rs_coef", "rs_tim"]) :
    extract isNone (Dict.erase d k) pre = extract isNone d pre := by
  unfold extract
  rw [foldl_erase]
  intro w v
  unfold extractStep
  rw [h.idx hp]

theorem extract_keys (h : Other k) (d : Dict (PVal V)) {pre : String} (hp : pre ∈ ["rb_coef", "rb_tim", "rs_coef", "rs_tim"]) :
    k ∉ (extract isNone d pre).2 := by
  unfold extract
  simp only
  have : ∀ acc : List (Option (PVal V)) × List String, k ∉ acc.2 → k ∉ (d.foldl (extractStep isNone pre) acc).2 := by
    induction d with
    | nil => intro acc ha; exact ha
    | cons p d ih =>
      intro acc ha
      rw [List.foldl_cons]
      apply ih
      unfold extractStep
      split
      · next i hi =>
        simp only [List.mem_append, List.mem_singleton, not_or]
        refine ⟨ha, ?_⟩
        rintro rfl
        rw [h.idx hp] at hi
        exact absurd hi (by simp)
      · exact ha
  exact this _ (by simp)

theorem processRb_erase (h : Other k) (d : Dict (PVal V)) :
    processRb isNone (Dict.erase d k) = (processRb isNone d).map (fun r => (Dict.erase r.1 k, r.2)) := by
  unfold processRb
  simp only [extract_erase isNone h d (show "rb_coef" ∈ _ by decide), extract_erase isNone h d (show "rb_tim" ∈ _ by decide)]
  split_ifs
  · rfl
  · rfl
  · rfl
  · simp only [Except.map, erase_set d _ h.rb]

theorem processRs_erase (h : Other k) (d : Dict (PVal V)) :
    processRs isNone (Dict.erase d k) = (processRs isNone d).map (fun r => (Dict.erase r.1 k, r.2)) := by
  unfold processRs
  simp only [extract_erase isNone h d (show "rs_coef" ∈ _ by decide), extract_erase isNone h d (show "rs_tim" ∈ _ by decide)]
  split_ifs
  · rfl
  · rfl
  · rfl
  · simp only [Except.map, erase_set d _ h.rs]

theorem processRb_keys (h : Other k) {d : Dict (PVal V)} {r} (e : processRb isNone d = .ok r) : k ∉ r.2 := by
  unfold processRb at e
  simp only at e
  split at e
  · rw [Except.ok.injEq] at e; subst e; simp
  · split at e
    · exact absurd e (by simp)
    · rw [Except.ok.injEq] at e; subst e
      simp only [List.mem_append, not_or]
      exact ⟨extract_keys isNone h d (by decide), extract_keys isNone h d (by decide)⟩

theorem processRs_keys (h : Other k) {d : Dict (PVal V)} {r} (e : processRs isNone d = .ok r) : k ∉ r.2 := by
  unfold processRs at e
  simp only at e
  split at e
  · rw [Except.ok.injEq] at e; subst e; simp
  · split at e
    · exact absurd e (by simp)
    · rw [Except.ok.injEq] at e; subst e
      simp only [List.mem_append, not_or]
      exact ⟨extract_keys isNone h d (by decide), extract_keys isNone h d (by decide)⟩

theorem popAll_erase (ks : List String) (hk : k ∉ ks) (d : Dict (PVal V)) :
    popAll (Dict.erase d k) ks = (popAll d ks).map (fun r => Dict.erase r k) := by
  induction ks generalizing d with
  | nil => rfl
  | cons a ks ih =>
    simp only [List.mem_cons, not_or] at hk
    unfold popAll
    rw [has_erase_other d (fun e => hk.1 e.symm), erase_comm]
    split
    · exact ih hk.2 _
    · rfl

theorem hasFlat_erase (h : Other k) (d : Dict (PVal V)) : hasFlat (Dict.erase d k) = hasFlat d := by
  unfold hasFlat
  induction d with
  | nil => rfl
  | cons p d ih =>
    rw [erase_cons]
    by_cases e : p.1 = k
    · rw [if_pos e, ih, List.any_cons]
      have : (["rb_coef", "rb_tim", "rs_coef", "rs_tim"].any (fun pre => pre.toList.isPrefixOf p.1.toList)) = false := by
        rw [List.any_eq_false]
        intro pre hp hc
        rw [List.isPrefixOf_iff_prefix, e] at hc
        exact h.flat pre hp hc
      rw [this, Bool.false_or]
    · rw [if_neg e]
      change (_ || List.any (Dict.erase d k) _) = (_ || List.any d _)
      rw [ih]

theorem flat_erase (h : Other k) (d : Dict (PVal V)) :
    Flat.processFlat isNone (Dict.erase d k) = (Flat.processFlat isNone d).map (fun r => Dict.erase r k) := by
  unfold Flat.processFlat
  rw [hasFlat_erase h]
  split
  · rw [processRb_erase isNone h]
    cases e1 : processRb isNone d with
    | error x => rfl
    | ok r =>
      simp only [Except.map, bind_ok]
      rw [processRs_erase isNone h]
      cases e2 : processRs isNone r.1 with
      | error x => rfl
      | ok s =>
        simp only [Except.map, bind_ok]
        rw [popAll_erase]
        · rfl
        · simp only [List.mem_append, not_or]
          exact ⟨processRb_keys isNone h e1, processRs_keys isNone h e2⟩
  · rfl

/-- Entries of other names stay what they are. -/
def Plain (k : String) (d : Dict (PVal V)) : Prop := ∀ p ∈ d, p.1 = k → ∃ v, p.2 = .val v

theorem plain_set {d : Dict (PVal V)} (hd : Plain k d) {a : String} (ha : a ≠ k) (v : PVal V) : Plain k (Dict.set d a v) := by
  induction d with
  | nil =>
    intro p hp e
    simp only [Dict.set, List.mem_singleton] at hp
    subst hp
    exact absurd e ha
  | cons q d ih =>
    have ih := ih (fun p hp => hd p (List.mem_cons_of_mem _ hp))
    intro p hp e
    unfold Dict.set at hp
    split at hp
    · next hq =>
      rcases List.mem_cons.1 hp with rfl | hp
      · exact absurd (hq.symm.trans e) ha
      · exact hd p (List.mem_cons_of_mem _ hp) e
    · rcases List.mem_cons.1 hp with rfl | hp
      · exact hd _ List.mem_cons_self e
      · exact ih p hp e

theorem plain_flat (h : Other k) {d r : Dict (PVal V)} (hd : Plain k d) (e : Flat.processFlat isNone d = .ok r) : Plain k r := by
  have hrb : ∀ {d : Dict (PVal V)} {r}, Plain k d → processRb isNone d = .ok r → Plain k r.1 := by
    intro d r hd e
    unfold processRb at e
    simp only at e
    split at e
    · rw [Except.ok.injEq] at e; subst e; exact hd
    · split at e
      · exact absurd e (by simp)
      · rw [Except.ok.injEq] at e; subst e
        simp only
        split
        · exact hd
        · exact plain_set hd h.rb _
  have hrs : ∀ {d : Dict (PVal V)} {r}, Plain k d → processRs isNone d = .ok r → Plain k r.1 := by
    intro d r hd e
    unfold processRs at e
    simp only at e
    split at e
    · rw [Except.ok.injEq] at e; subst e; exact hd
    · split at e
      · exact absurd e (by simp)
      · rw [Except.ok.injEq] at e; subst e
        simp only
        split
        · exact hd
        · exact plain_set hd h.rs _
  have hpop : ∀ (ks : List String) {d r : Dict (PVal V)}, Plain k d → popAll d ks = .ok r → Plain k r := by
    intro ks
    induction ks with
    | nil => intro d r hd e; simp only [popAll, Except.ok.injEq] at e; subst e; exact hd
    | cons a ks ih =>
      intro d r hd e
      unfold popAll at e
      split at e
      · exact ih (fun p hp => hd p (List.mem_filter.1 hp).1) e
      · exact absurd e (by simp)
  unfold Flat.processFlat at e
  split at e
  · obtain ⟨⟨p1, k1⟩, e1, e⟩ := bind_eq_ok.1 e
    obtain ⟨⟨p2, k2⟩, e2, e⟩ := bind_eq_ok.1 e
    exact hpop _ (hrs (hrb hd e1) e2) e
  · rw [Except.ok.injEq] at e; subst e; exact hd

end

section
variable {F : Type} [Add F] [Sub F] [Mul F] [Div F] [Neg F] [OfScientific F] [LT F] [DecidableLT F] [MathFn F] {k : String}

theorem mapM_erase {A B : Type} (f : String × A → Except PyErr (String × B)) (hf : ∀ p r, f p = .ok r → r.1 = p.1)
    (q : Dict A) (hq : ∀ p ∈ q, p.1 = k → ∃ r, f p = .ok r) :
    (Dict.erase q k).mapM f = (q.mapM f).map (fun r : Dict B => Dict.erase r k) := by
  induction q with
  | nil => rfl
  | cons p q ih =>
    have ih := ih (fun a ha => hq a (List.mem_cons_of_mem _ ha))
    rw [erase_cons, List.mapM_cons]
    by_cases e : p.1 = k
    · obtain ⟨r, hr⟩ := hq p List.mem_cons_self e
      rw [if_pos e, ih, hr, bind_ok]
      cases q.mapM f with
      | error x => rfl
      | ok l =>
        rw [bind_ok, pure_ok]
        simp only [Except.map]
        rw [erase_cons, if_pos ((hf p r hr).trans e)]
    · rw [if_neg e, List.mapM_cons, ih]
      cases hr : f p with
      | error x => rfl
      | ok r =>
        rw [bind_ok, bind_ok]
        cases q.mapM f with
        | error x => rfl
        | ok l =>
          simp only [Except.map, bind_ok, pure_ok]
          rw [erase_cons, if_neg (fun h => e ((hf p r hr).symm.trans h))]

/-- Turning numbered response parameters into response functions commutes with leaving out another name. -/
theorem processFlat_erase (h : Other k) (d : Dict (PyVal F)) :
    CarbonInst.processFlat (Dict.erase d k) = (CarbonInst.processFlat d).map (fun r => Dict.erase r k) := by
  unfold CarbonInst.processFlat
  have e1 : (Dict.erase d k).map (fun kv => (kv.1, (PVal.val kv.2 : PVal (PyVal F)))) =
      Dict.erase (d.map (fun kv => (kv.1, PVal.val kv.2))) k := by
    unfold Dict.erase
    rw [List.filter_map]
    rfl
  rw [e1, flat_erase _ h]
  cases e : Flat.processFlat CarbonInst.isNoneP (d.map (fun kv => (kv.1, (PVal.val kv.2 : PVal (PyVal F))))) with
  | error x => rfl
  | ok q =>
    simp only [Except.map, bind_ok]
    have hp : Plain k q := plain_flat _ h (by
      intro p hp _
      obtain ⟨a, -, rfl⟩ := List.mem_map.1 hp
      exact ⟨a.2, rfl⟩) e
    refine mapM_erase _ ?_ q ?_
    · intro p r hr
      obtain ⟨w, -, hw⟩ := bind_eq_ok.1 hr
      rw [pure_ok, Except.ok.injEq] at hw
      rw [← hw]
    · intro p hm hk
      obtain ⟨v, hv⟩ := hp p hm hk
      exact ⟨(p.1, v), by rw [hv]; rfl⟩

end
end Verif.Lemmas.FlatErase
