import Verif.Lemmas.CompleteCarbon
import Verif.Props.C26_C54
import Verif.Spec.Response
import Verif.Exec.InputRun

/-!
# C86: the response functions a carbon cycle model uses are the latest ones it was given
-/

namespace Verif.Props
open Verif.Py Verif.Py.Dict Verif.Model Verif.Model.CarbonInst Verif.Spec.Response

section
variable {V : Type}

theorem popAll_wf : ∀ (ks : List String) {d r : Dict (Flat.PVal V)}, WF d → Flat.popAll d ks = .ok r → WF r := by
  intro ks
  induction ks with
  | nil => intro d r hd h; unfold Flat.popAll at h; rw [Except.ok.injEq] at h; subst h; exact hd
  | cons k ks ih =>
    intro d r hd h
    unfold Flat.popAll at h
    split at h
    · refine ih ?_ h
      unfold WF keys erase
      exact hd.sublist (List.filter_sublist.map _)
    · cases h

theorem processFlat_wf {isNone : Flat.PVal V → Bool} {d r : Dict (Flat.PVal V)} (hd : WF d)
    (h : Flat.processFlat isNone d = .ok r) : WF r := by
  unfold Flat.processFlat at h
  split at h
  · simp only [bind_eq_ok] at h
    obtain ⟨⟨p1, k1⟩, h1, ⟨p2, k2⟩, h2, h3⟩ := h
    have w1 : WF p1 := by
      unfold Flat.processRb at h1
      simp only at h1
      split at h1
      · rw [Except.ok.injEq, Prod.mk.injEq] at h1; rw [← h1.1]; exact hd
      · split at h1
        · cases h1
        · rw [Except.ok.injEq, Prod.mk.injEq] at h1
          rw [← h1.1]
          split
          · exact hd
          · exact WF_set _ _ _ hd
    have w2 : WF p2 := by
      unfold Flat.processRs at h2
      simp only at h2
      split at h2
      · rw [Except.ok.injEq, Prod.mk.injEq] at h2; rw [← h2.1]; exact w1
      · split at h2
        · cases h2
        · rw [Except.ok.injEq, Prod.mk.injEq] at h2
          rw [← h2.1]
          split
          · exact w1
          · exact WF_set _ _ _ w1
    exact popAll_wf _ w2 h3
  · rw [Except.ok.injEq] at h; subst h; exact hd

end

section
variable {F : Type} [MathFn F]

theorem keys_mapM_unflat : ∀ {q : Dict (Flat.PVal (PyVal F))} {r : Dict (PyVal F)},
    q.mapM (fun kv => do return (kv.1, ← unflat kv.2)) = .ok r → keys r = keys q := by
  intro q
  induction q with
  | nil => intro r h; rw [List.mapM_nil, pure_ok, Except.ok.injEq] at h; subst h; rfl
  | cons kv q ih =>
    intro r h
    rw [List.mapM_cons] at h
    simp only [bind_eq_ok] at h
    obtain ⟨x, ⟨v, -, hx⟩, ys, h2, h3⟩ := h
    rw [pure_ok, Except.ok.injEq] at h3 hx
    subst h3 hx
    have := ih h2
    unfold keys at this ⊢
    rw [List.map_cons, List.map_cons, this]

theorem flat_wf {p new : Dict (PyVal F)} (hp : WF p) (h : CarbonInst.processFlat p = .ok new) : WF new := by
  unfold CarbonInst.processFlat at h
  simp only [bind_eq_ok] at h
  obtain ⟨q, h1, h2⟩ := h
  have hp' : WF (p.map (fun kv => (kv.1, Flat.PVal.val kv.2))) := by
    unfold WF keys at hp ⊢
    rw [List.map_map]
    exact hp
  have := processFlat_wf hp' h1
  unfold WF at this ⊢
  rw [keys_mapM_unflat h2]
  exact this

end

section
variable {F : Type} [Add F] [Sub F] [Mul F] [Div F] [Neg F] [OfScientific F] [LT F] [DecidableLT F] [MathFn F]

/-- The names of the response functions. -/
abbrev Resp (key : String) : Prop := key = "rs_function" ∨ key = "rb_function"

omit [Add F] [Sub F] [Mul F] [Div F] [Neg F] [LT F] [DecidableLT F] [MathFn F] in
/-- The checked carbon parameters hold the response functions given. -/
theorem cut_response {new : Dict (PyVal F)} (hw : WF new) {key : String} (hk : Resp key) :
    get? (cutAndCheckPamset irRequired new irUsed) key = get? new key := by
  unfold cutAndCheckPamset
  have h1 : get? (irRequired (F := F)) key = none := by
    rw [get?_eq_none_iff, irRequired_keys]
    rcases hk with rfl | rfl <;> decide
  rw [get?_checkNumericPamset irRequired_wf, h1]
  simp only
  rw [get?_cutNonRequired _ _ hw, if_pos]
  rw [mem_keys_usedKeys]
  left
  rcases hk with rfl | rfl <;> simp [irUsed, keys]

theorem cut_flat (new : Dict (PyVal F)) : CarbonInst.processFlat (cutAndCheckPamset (irRequired (F := F)) new irUsed) =
    .ok (cutAndCheckPamset irRequired new irUsed) := by
  refine processFlat_plain ?_
  intro key hk pre hpre
  have : key ∈ (irRequired (F := F)).keys ∨ Resp key := by
    obtain ⟨v, hv⟩ := (get?_isSome_iff _ _).2 hk
    unfold cutAndCheckPamset at hv
    rw [get?_checkNumericPamset irRequired_wf] at hv
    cases hr : Dict.get? (irRequired (F := F)) key with
    | some d => exact .inl ((get?_isSome_iff _ _).1 ⟨d, hr⟩)
    | none =>
      rw [hr] at hv
      simp only at hv
      obtain ⟨e2, -⟩ := (Driver.mem_keys_cut _ _ _).1 ((get?_isSome_iff _ _).1 ⟨v, hv⟩)
      rw [mem_keys_usedKeys] at e2
      rcases e2 with e2 | e2
      · simp only [irUsed, Dict.keys, List.map_cons, List.map_nil, List.mem_cons, List.not_mem_nil, or_false] at e2
        exact .inr e2
      · exact .inl e2
  rcases this with h | h
  · rw [irRequired_keys] at h
    exact no_flat_key key h pre hpre
  · have : ∀ pre ∈ ["rb_coef", "rb_tim", "rs_coef", "rs_tim"], ∀ key ∈ ["rs_function", "rb_function"],
        ¬ (pre.toList <+: key.toList) := by decide
    exact this pre hpre key (by rcases h with rfl | rfl <;> simp)

/-- What the object holds under the name of a response function. -/
def Holds (ps : List (Option (Dict (PyVal F)))) (pam : Dict (PyVal F)) (key : String) : Prop :=
  (∀ v, LatestGives ps key v → get? pam key = some v) ∧ (NeverGiven ps key → get? pam key = none)

theorem life_keeps {time : Dict (PyVal F)} {ps : List (Option (Dict (PyVal F)))} {k : IR F} (h : Life time ps k) :
    IRFuns k ∧ ∀ key, Resp key → Holds ps k.pam key := by
  induction h with
  | @made p k hp hc =>
    simp only [irOps, irCreate, bind_eq_ok] at hc
    obtain ⟨new, hnew, pam, hpam, idtm, -, ns, -, ne, -, hc⟩ := hc
    split at hc
    · cases hc
    simp only [bind_eq_ok] at hc
    obtain ⟨mixed, -, m, hm, hc⟩ := hc
    have hpam' : pam = cutAndCheckPamset irRequired new irUsed := by
      unfold takeOutMissing at hpam
      split at hpam
      · cases hpam
      · rw [Except.ok.injEq] at hpam; exact hpam.symm
    obtain ⟨f, hk⟩ := precalcR_spec hc
    refine ⟨f, fun key hkey => ?_⟩
    have hmp : get? k.pam key = get? new key := by
      rw [hk]
      simp only
      obtain ⟨-, -, -, -, -, e⟩ := irReset_spec hm
      rcases e with ⟨e, -⟩ | ⟨p', new', e1, e2, e3⟩
      · cases e
      rw [Option.some.injEq] at e1
      subst e1
      rw [hpam', cut_flat, Except.ok.injEq] at e2
      rw [e3, irNewPam_get?, if_pos (show key = "rs_function" ∨ key = "rb_function" from hkey), ← e2, hpam', cut_response (flat_wf hp hnew) hkey]
      cases get? new key <;> rfl
    have hgive : ∀ v, Gives (some p) key v ↔ get? new key = some v := by
      intro v
      constructor
      · rintro ⟨d, n, e1, e2, e3⟩
        rw [Option.some.injEq] at e1
        subst e1
        rw [hnew, Except.ok.injEq] at e2
        rw [e2, e3]
      · intro e; exact ⟨p, new, rfl, hnew, e⟩
    rw [Holds, hmp]
    refine ⟨?_, ?_⟩
    · rintro v ⟨as, q, bs, e, hg, -⟩
      have : q = some p := by
        have hm : q ∈ [some p] := by rw [e]; simp
        simpa using hm
      subst this
      exact (hgive v).1 hg
    · intro hn
      cases hv : get? new key with
      | none => rfl
      | some v => exact absurd ((hgive v).2 hv) (hn _ (by simp) v)
  | @reset ps k k' p _ hr ih =>
    simp only [irOps] at hr
    obtain ⟨-, -, -, hf, -, e⟩ := irReset_spec hr
    refine ⟨hf ih.1, fun key hkey => ?_⟩
    obtain ⟨i1, i2⟩ := ih.2 key hkey
    by_cases hg : ∃ v, Gives p key v
    · obtain ⟨v, hv⟩ := hg
      have hk' : get? k'.pam key = some v := by
        obtain ⟨d, n, e1, e2, e3⟩ := hv
        subst e1
        rcases e with ⟨e, -⟩ | ⟨p', new', e4, e5, e6⟩
        · cases e
        rw [Option.some.injEq] at e4
        subst e4
        rw [e2, Except.ok.injEq] at e5
        rw [e6, irNewPam_get?, if_pos (show key = "rs_function" ∨ key = "rb_function" from hkey), ← e5, e3]
        rfl
      refine ⟨?_, fun hn => absurd hv (hn p (by simp) v)⟩
      rintro w ⟨as, q, bs, e1, hw, hb⟩
      have : q = p ∧ bs = [] := by
        rcases List.eq_nil_or_concat bs with rfl | ⟨bs', b, rfl⟩
        · have := List.append_inj' (t₁ := [p]) (t₂ := [q]) e1 rfl
          simpa using this.2.symm
        · rw [List.concat_eq_append, ← List.cons_append, ← List.append_assoc] at e1
          have := (List.append_inj' e1 rfl).2
          rw [List.cons.injEq] at this
          refine absurd hv ?_
          rw [this.1]
          exact hb b (by simp) v
      obtain ⟨rfl, -⟩ := this
      obtain ⟨d, n, e1, e2, e3⟩ := hv
      obtain ⟨d', n', f1, f2, f3⟩ := hw
      rw [e1, Option.some.injEq] at f1
      subst f1
      rw [e2, Except.ok.injEq] at f2
      subst f2
      rw [hk', ← e3, f3]
    · push Not at hg
      have hk' : get? k'.pam key = get? k.pam key := by
        rcases e with ⟨-, e⟩ | ⟨p', new', e4, e5, e6⟩
        · rw [e]
        rw [e6, irNewPam_get?, if_pos (show key = "rs_function" ∨ key = "rb_function" from hkey)]
        cases hn : get? new' key with
        | none => rfl
        | some v => exact absurd ⟨p', new', e4, e5, hn⟩ (hg v)
      rw [Holds, hk']
      refine ⟨?_, fun hn => i2 (fun q hq w => hn q (by simp [hq]) w)⟩
      rintro w ⟨as, q, bs, e1, hw, hb⟩
      rcases List.eq_nil_or_concat bs with rfl | ⟨bs', b, rfl⟩
      · have := (List.append_inj' (t₁ := [p]) (t₂ := [q]) e1 rfl).2
        rw [List.cons.injEq] at this
        rw [← this.1] at hw
        exact absurd hw (hg w)
      · rw [List.concat_eq_append, ← List.cons_append, ← List.append_assoc] at e1
        have e2 := (List.append_inj' e1 rfl).1
        exact i1 w ⟨as, q, bs', e2, hw, fun c hc => hb c (by simp [hc])⟩
  | @year ps k r yr em fb _ hr ih =>
    simp only [irOps, irStep, bind_eq_ok] at hr
    obtain ⟨p, hp, e⟩ := hr
    split at e
    · cases e
    split at e
    · cases e
    rw [pure_ok, Except.ok.injEq] at e
    subst e
    exact ⟨⟨ih.1.rs, ih.1.rb⟩, ih.2⟩

end

section
variable {F : Type} [Add F] [Sub F] [Mul F] [Div F] [Neg F] [OfScientific F] [LT F] [DecidableLT F] [MathFn F]

omit [Add F] [Sub F] [Mul F] [Div F] [Neg F] [MathFn F] in
theorem check_lengths {c t : List F} {b : Bool} {r : List F × List F} (h : checkArrayConsistency c t b = .ok r) :
    c.length = t.length + (if b then 1 else 0) ∧ r = (c, t) := by
  unfold checkArrayConsistency at h
  by_cases hl : c.length = t.length + (if b = true then 1 else 0)
  · rw [if_neg (not_not.2 hl)] at h
    split at h
    · cases h
    · rw [Except.ok.injEq] at h
      exact ⟨hl, h.symm⟩
  · rw [if_pos hl] at h
    cases h

/-- **C86** The ocean response of a default carbon cycle model, at any time of its life: the one given latest, which has one
more coefficient than timescales, and the built-in one if none was ever given. -/
theorem C86_ocean {time : Dict (PyVal F)} {ps : List (Option (Dict (PyVal F)))} {k : IR F} (h : Life time ps k) :
    (∀ c t, LatestGives ps "rs_function" (.rfun c t) → c.length = t.length + 1 ∧
      ∀ i, k.rs i = rsFunction2 c t i k.idtm.toNat) ∧
    (NeverGiven ps "rs_function" → ∀ i, k.rs i = rsFunction i k.idtm.toNat) := by
  obtain ⟨f, hh⟩ := life_keeps h
  obtain ⟨h1, h2⟩ := hh "rs_function" (.inl rfl)
  have hr := f.rs
  unfold rsOf at hr
  refine ⟨fun c t hl => ?_, fun hn i => ?_⟩
  · rw [h1 _ hl] at hr
    simp only [bind_eq_ok] at hr
    obtain ⟨r, hc, hr⟩ := hr
    obtain ⟨hlen, rfl⟩ := check_lengths hc
    rw [pure_ok, Except.ok.injEq] at hr
    exact ⟨hlen, fun i => by rw [← hr]⟩
  · rw [h2 hn] at hr
    simp only [Except.ok.injEq] at hr
    rw [← hr]

/-- **C86** The land response, likewise; here there are as many coefficients as timescales. -/
theorem C86_land {time : Dict (PyVal F)} {ps : List (Option (Dict (PyVal F)))} {k : IR F} (h : Life time ps k) :
    (∀ c t, LatestGives ps "rb_function" (.rfun c t) → c.length = t.length ∧
      ∀ i, k.rb i = rbFunction2 c t i k.idtm.toNat) ∧
    (NeverGiven ps "rb_function" → ∀ i, k.rb i = rbFunction i k.idtm.toNat) := by
  obtain ⟨f, hh⟩ := life_keeps h
  obtain ⟨h1, h2⟩ := hh "rb_function" (.inr rfl)
  have hr := f.rb
  unfold rbOf at hr
  refine ⟨fun c t hl => ?_, fun hn i => ?_⟩
  · rw [h1 _ hl] at hr
    simp only [bind_eq_ok] at hr
    obtain ⟨r, hc, hr⟩ := hr
    obtain ⟨hlen, rfl⟩ := check_lengths hc
    rw [pure_ok, Except.ok.injEq] at hr
    exact ⟨hlen, fun i => by rw [← hr]⟩
  · rw [h2 hn] at hr
    simp only [Except.ok.injEq] at hr
    rw [← hr]

end

/-- A response function whose lists fit: `extra` more coefficients than timescales, no negative number. -/
def Fits (extra : ℕ) (v : PyVal ℝ) : Prop :=
  ∃ c t, v = .rfun c t ∧ c.length = t.length + extra ∧ (∀ x ∈ c, 0 ≤ x) ∧ ∀ x ∈ t, 0 ≤ x

/-- **C86** A model that can be reset accepts new parameters exactly if the response functions among them fit; a set in which one
of them does not fit raises `ValueError`. -/
theorem C86_accepted_iff {time : Dict (PyVal ℝ)} {ps : List (Option (Dict (PyVal ℝ)))} {k k1 : IR ℝ} (h : Life time ps k)
    (hk : irOps.reset k none = .ok k1) {p new : Dict (PyVal ℝ)} (hp : CarbonInst.processFlat p = .ok new)
    (hf : ∀ key, Resp key → ∀ v, get? new key = some v → ∃ c t, v = .rfun c t) :
    ((∃ k', irOps.reset k (some p) = .ok k') ↔
      (∀ v, get? new "rs_function" = some v → Fits 1 v) ∧ ∀ v, get? new "rb_function" = some v → Fits 0 v) ∧
    ((∃ k', irOps.reset k (some p) = .ok k') ∨ irOps.reset k (some p) = .error .valueError) := by
  obtain ⟨f, -⟩ := life_keeps h
  simp only [irOps] at hk ⊢
  unfold irReset at hk ⊢
  rw [bind_eq_ok] at hk
  obtain ⟨m, hm, hk⟩ := hk
  simp only [Except.ok.injEq] at hk
  subst hk
  rw [hm, bind_ok]
  have em : m.pam = k.pam ∧ m.idtm = k.idtm := by
    unfold resetHold at hm
    rw [bind_eq_ok] at hm
    obtain ⟨x, -, hm⟩ := hm
    split at hm
    · cases hm
    · rw [pure_ok, Except.ok.injEq] at hm
      subst hm
      exact ⟨rfl, rfl⟩
  simp only
  unfold irUpdate
  rw [hp, bind_ok]
  simp only
  -- the two responses
  have check : ∀ (b : Bool) (c t : List ℝ), Fits (if b then 1 else 0) (.rfun c t) ∧ checkArrayConsistency c t b = .ok (c, t) ∨
      ¬ Fits (if b then 1 else 0) (.rfun c t) ∧ checkArrayConsistency c t b = .error .valueError := by
    intro b c t
    rw [C54_accepts_iff]
    by_cases hfit : c.length = t.length + (if b then 1 else 0) ∧ (∀ c_1 ∈ c, 0 ≤ c_1) ∧ (∀ t_1 ∈ t, 0 ≤ t_1)
    · rw [if_pos hfit]
      exact .inl ⟨⟨c, t, rfl, hfit⟩, rfl⟩
    · rw [if_neg hfit]
      refine .inr ⟨?_, rfl⟩
      rintro ⟨c', t', e, hh⟩
      rw [PyVal.rfun.injEq] at e
      obtain ⟨rfl, rfl⟩ := e
      exact hfit hh
  have hget : ∀ key, Resp key → get? (irNewPam m.pam new) key = (get? new key).or (get? k.pam key) := by
    intro key hkey
    rw [irNewPam_get?, if_pos (show key = "rs_function" ∨ key = "rb_function" from hkey), em.1]
  have rs : ((∀ v, get? new "rs_function" = some v → Fits 1 v) ∧ ∃ r, rsOf (irNewPam m.pam new) m.idtm.toNat = .ok r) ∨
      (¬ (∀ v, get? new "rs_function" = some v → Fits 1 v) ∧ rsOf (irNewPam m.pam new) m.idtm.toNat = .error .valueError) := by
    unfold rsOf
    rw [hget _ (.inl rfl)]
    cases hv : get? new "rs_function" with
    | none =>
      left
      refine ⟨fun v e => (by cases e), ?_⟩
      have := f.rs
      unfold rsOf at this
      rw [em.2]
      exact ⟨_, this⟩
    | some v =>
      obtain ⟨c, t, rfl⟩ := hf _ (.inl rfl) v hv
      rcases check true c t with ⟨a, b⟩ | ⟨a, b⟩
      · left
        refine ⟨fun v e => ?_, ?_⟩
        · rw [Option.some.injEq] at e; subst e; exact a
        · simp only [Option.some_or, b, bind_ok, pure_ok]
          exact ⟨_, rfl⟩
      · right
        refine ⟨fun hh => a (hh _ rfl), ?_⟩
        simp only [Option.some_or, b]
        rfl
  have rb : ((∀ v, get? new "rb_function" = some v → Fits 0 v) ∧ ∃ r, rbOf (irNewPam m.pam new) m.idtm.toNat = .ok r) ∨
      (¬ (∀ v, get? new "rb_function" = some v → Fits 0 v) ∧ rbOf (irNewPam m.pam new) m.idtm.toNat = .error .valueError) := by
    unfold rbOf
    rw [hget _ (.inr rfl)]
    cases hv : get? new "rb_function" with
    | none =>
      left
      refine ⟨fun v e => (by cases e), ?_⟩
      have := f.rb
      unfold rbOf at this
      rw [em.2]
      exact ⟨_, this⟩
    | some v =>
      obtain ⟨c, t, rfl⟩ := hf _ (.inr rfl) v hv
      rcases check false c t with ⟨a, b⟩ | ⟨a, b⟩
      · left
        refine ⟨fun v e => ?_, ?_⟩
        · rw [Option.some.injEq] at e; subst e; exact a
        · simp only [Option.some_or, b, bind_ok, pure_ok]
          exact ⟨_, rfl⟩
      · right
        refine ⟨fun hh => a (hh _ rfl), ?_⟩
        simp only [Option.some_or, b]
        rfl
  by_cases hn : (new.has "rs_function" || new.has "rb_function") = true
  · rw [if_pos hn]
    unfold precalcR
    simp only
    rcases rs with ⟨a, r, hr⟩ | ⟨a, hr⟩
    · rw [hr, bind_ok]
      rcases rb with ⟨a', r', hr'⟩ | ⟨a', hr'⟩
      · rw [hr', bind_ok]
        exact ⟨⟨fun _ => ⟨a, a'⟩, fun _ => ⟨_, rfl⟩⟩, .inl ⟨_, rfl⟩⟩
      · rw [hr', bind_error]
        exact ⟨⟨fun ⟨_, e⟩ => (by cases e), fun e => absurd e.2 a'⟩, .inr rfl⟩
    · rw [hr, bind_error]
      exact ⟨⟨fun ⟨_, e⟩ => (by cases e), fun e => absurd e.1 a⟩, .inr rfl⟩
  · rw [if_neg hn]
    rw [Bool.or_eq_true, not_or, has_iff, has_iff, ← get?_eq_none_iff, ← get?_eq_none_iff] at hn
    rw [hn.1, hn.2]
    exact ⟨⟨fun _ => ⟨fun v e => (by cases e), fun v e => (by cases e)⟩, fun _ => ⟨_, rfl⟩⟩, .inl ⟨_, rfl⟩⟩

/-! ## The cases occur -/
open Verif.Exec

/-- A land response as numbered keys, and an ocean response as lists. -/
def landKeys : Dict (PyVal ℚ) := [("rb_tim0", .flt 2), ("rb_coef1", .flt 1), ("rb_coef0", .flt 3), ("rb_tim1", .flt 20)]
def oceanLists : Dict (PyVal ℚ) := [("rs_function", .rfun [1, 2] [5]), ("beta_f", .flt 0.3)]

theorem landKeys_new : CarbonInst.processFlat landKeys = .ok [("rb_function", .rfun [3, 1] [2, 20])] := by
  have : ∀ x : Except PyErr (Dict (PyVal ℚ)), (match x with
      | .ok [("rb_function", .rfun [a, b] [c, d])] => decide (a = 3 ∧ b = 1 ∧ c = 2 ∧ d = 20)
      | _ => false) = true → x = .ok [("rb_function", .rfun [3, 1] [2, 20])] := by
    intro x hx
    split at hx
    · simp only [decide_eq_true_eq] at hx
      obtain ⟨rfl, rfl, rfl, rfl⟩ := hx
      rfl
    · cases hx
  exact this _ (by decide +kernel)

theorem oceanLists_new : CarbonInst.processFlat oceanLists = .ok oceanLists := processFlat_plain (by decide)

/-- A model made with an ocean response, reset with a land response, then reset without parameters. -/
theorem twice_reset : ∃ k : IR ℚ, Life (F := ℚ) [] [some oceanLists, some landKeys, none] k := by
  have h1 : ∃ k, irOps.create ([] : Dict (PyVal ℚ)) oceanLists = .ok k := by rw [← okB_iff]; decide +kernel
  have h2 : ∃ k, (irOps.create ([] : Dict (PyVal ℚ)) oceanLists >>= fun k => irOps.reset k (some landKeys)) = .ok k := by
    rw [← okB_iff]; decide +kernel
  have h3 : ∃ k, (irOps.create ([] : Dict (PyVal ℚ)) oceanLists >>= fun k => irOps.reset k (some landKeys) >>= fun k =>
      irOps.reset k none) = .ok k := by
    rw [← okB_iff]; decide +kernel
  obtain ⟨a, ha⟩ := h1
  rw [ha] at h2 h3
  obtain ⟨b, hb⟩ := h2
  rw [bind_ok] at hb h3
  rw [hb] at h3
  obtain ⟨c, hc⟩ := h3
  rw [bind_ok] at hc
  exact ⟨c, .reset _ (.reset _ (.made (by unfold WF; decide) ha) hb) hc⟩

/-- It uses the ocean response it was made with and the land response of the first reset. -/
example : ∃ k : IR ℚ, (∀ i, k.rs i = rsFunction2 [1, 2] [5] i k.idtm.toNat) ∧ ∀ i, k.rb i = rbFunction2 [3, 1] [2, 20] i k.idtm.toNat := by
  obtain ⟨k, hk⟩ := twice_reset
  have none' : ∀ key w, ¬ Gives (F := ℚ) none key w := by rintro key w ⟨d, new, e, -⟩; cases e
  refine ⟨k, ((C86_ocean hk).1 _ _ ?_).2, ((C86_land hk).1 _ _ ?_).2⟩
  · refine ⟨[], some oceanLists, [some landKeys, none], rfl, ⟨_, _, rfl, oceanLists_new, rfl⟩, ?_⟩
    intro b hb w
    simp only [List.mem_cons, List.not_mem_nil, or_false] at hb
    rcases hb with rfl | rfl
    · rintro ⟨d, new, e, h1, h2⟩
      rw [Option.some.injEq] at e
      subst e
      rw [landKeys_new, Except.ok.injEq] at h1
      subst h1
      cases h2
    · exact none' _ w
  · refine ⟨[some oceanLists], some landKeys, [none], rfl, ⟨_, _, rfl, landKeys_new, rfl⟩, ?_⟩
    intro b hb w
    simp only [List.mem_cons, List.not_mem_nil, or_false] at hb
    subst hb
    exact none' _ w

theorem rb_plain (c t : List ℝ) :
    CarbonInst.processFlat [("rb_function", PyVal.rfun c t)] = .ok [("rb_function", PyVal.rfun c t)] := by
  refine processFlat_plain ?_
  intro key hkey
  simp only [keys, List.map_cons, List.map_nil, List.mem_cons, List.not_mem_nil, or_false] at hkey
  subst hkey
  decide

theorem rb_only (c t : List ℝ) (key : String) (_ : Resp key) (v : PyVal ℝ)
    (hv : get? [("rb_function", PyVal.rfun c t)] key = some v) : ∃ c t, v = .rfun c t := by
  rw [get?_cons] at hv
  split at hv
  · rw [Option.some.injEq] at hv
    exact ⟨c, t, hv.symm⟩
  · cases hv

/-- Over the reals: a model that can be reset accepts a land response that fits, and rejects one with a timescale too many. -/
theorem rb_case {time : Dict (PyVal ℝ)} {ps : List (Option (Dict (PyVal ℝ)))} {k k1 : IR ℝ} (hl : Life time ps k)
    (hk1 : irOps.reset k none = .ok k1) : (∃ k', irOps.reset k (some [("rb_function", .rfun [1] [2])]) = .ok k') ∧
    irOps.reset k (some [("rb_function", .rfun [1] [2, 3])]) = .error .valueError := by
  constructor
  · refine (C86_accepted_iff hl hk1 (rb_plain [1] [2]) (rb_only [1] [2])).1.2 ⟨fun v e => ?_, fun v e => ?_⟩
    · rw [get?_cons, if_neg (by decide)] at e
      cases e
    · rw [get?_cons, if_pos rfl, Option.some.injEq] at e
      exact ⟨[1], [2], e.symm, rfl, by simp, by simp⟩
  · obtain ⟨a, b⟩ := C86_accepted_iff hl hk1 (rb_plain [1] [2, 3]) (rb_only [1] [2, 3])
    refine b.resolve_left (fun hh => ?_)
    obtain ⟨c, t, e, hlen, -⟩ := (a.1 hh).2 (.rfun [1] [2, 3]) (by rw [get?_cons, if_pos rfl])
    rw [PyVal.rfun.injEq] at e
    obtain ⟨rfl, rfl⟩ := e
    simp at hlen

/-- Such a model: made without response functions. -/
theorem made_plain : ∃ (k : IR ℝ) (k1 : IR ℝ), Life (Dict.set (Factory.checkPamset none) "conc_run" (.bool false)) [some []] k ∧
    irOps.reset k none = .ok k1 := by
  have hp : PlainIR ([] : Dict (PyVal ℝ)) := ⟨[], processFlat_plain (by simp [keys]), rfl, rfl⟩
  have h1 : Handler.pamI (Factory.checkPamset (F := ℝ) none) "nystart" = .ok 1750 := rfl
  have h2 : Handler.pamI (Factory.checkPamset (F := ℝ) none) "nyend" = .ok 2100 := rfl
  have h3 : Handler.pamI (Factory.checkPamset (F := ℝ) none) "idtm" = .ok 24 := rfl
  obtain ⟨k, hk, hfit⟩ := ir_creates (F := ℝ) (i := false) (ps := none) hp (by norm_num) h1 h2 h3 (by norm_num)
  obtain ⟨k1, hk1, -⟩ := ir_resets (by norm_num) none (fun p e => by cases e) k hfit
  generalize Dict.set (Factory.checkPamset (F := ℝ) none) "conc_run" (.bool false) = e at hk ⊢
  exact ⟨k, k1, .made WF_nil hk, hk1⟩

end Verif.Props
