import Verif.Lemmas.Rerun
import Verif.Model.CarbonInst

/-! # Carbon cycle parameters after earlier runs -/

namespace Verif.Model.CarbonInst
open Verif.Py Verif.Py.Dict Verif.Model Verif.Model.Handler Verif.Model.Driver Verif.Spec

section
variable {F : Type}

theorem updatePam_keep (cc : List String) (new d : Dict (PyVal F)) (x : String)
    (h : x ∈ cc → ¬ GivesNumber new x) : get? (new.foldl (updatePamStep cc) d) x = get? d x := by
  induction new generalizing d with
  | nil => rfl
  | cons p new ih =>
    rw [List.foldl_cons, ih _ (fun hx ⟨v, hv, hn⟩ => h hx ⟨v, List.mem_cons_of_mem _ hv, hn⟩),
      get?_updatePamStep, if_neg]
    rintro ⟨rfl, hc, -, hn⟩
    exact h hc ⟨p.2, List.mem_cons_self, hn⟩

theorem updatePam_congr (cc : List String) (new d d' : Dict (PyVal F)) (x : String)
    (hk : x ∈ Dict.keys d' ↔ x ∈ Dict.keys d)
    (h : x ∈ cc ∧ GivesNumber new x ∨ get? d' x = get? d x) :
    get? (new.foldl (updatePamStep cc) d') x = get? (new.foldl (updatePamStep cc) d) x := by
  induction new generalizing d d' with
  | nil =>
    rcases h with ⟨_, v, hv, _⟩ | h
    · cases hv
    · exact h
  | cons p new ih =>
    rw [List.foldl_cons, List.foldl_cons]
    apply ih
    · rw [keys_updatePamStep, keys_updatePamStep]; exact hk
    · rw [get?_updatePamStep, get?_updatePamStep]
      by_cases hp : p.1 = x ∧ p.1 ∈ cc ∧ p.2.isNum = true
      · right
        obtain ⟨rfl, h1, h2⟩ := hp
        by_cases hm : p.1 ∈ Dict.keys d
        · rw [if_pos ⟨rfl, h1, hk.2 hm, h2⟩, if_pos ⟨rfl, h1, hm, h2⟩]
        · rw [if_neg (fun e => hm (hk.1 e.2.2.1)), if_neg (fun e => hm e.2.2.1),
            (get?_eq_none_iff _ _).2 hm, (get?_eq_none_iff _ _).2 (fun e => hm (hk.1 e))]
      · rw [if_neg (fun e => hp ⟨e.1, e.2.1, e.2.2.2⟩), if_neg (fun e => hp ⟨e.1, e.2.1, e.2.2.2⟩)]
        rcases h with ⟨hx, v, hv, hn⟩ | h
        · rcases List.mem_cons.1 hv with e | hv
          · subst e
            exact absurd ⟨rfl, hx, hn⟩ hp
          · exact Or.inl ⟨hx, v, hv, hn⟩
        · exact Or.inr h

end

section
variable {F : Type} [Add F] [Sub F] [Mul F] [Div F] [Neg F] [OfScientific F] [LT F] [DecidableLT F]
  [MathFn F]

theorem pamF_congr {d d' : Dict (PyVal F)} (h : ∀ x, get? d' x = get? d x) (x : String) :
    pamF d' x = pamF d x := by
  unfold pamF getE; rw [h]

/-! ## Box model -/

/-- What earlier runs left of the parameters. -/
structure BoxKept (qs : List (Option (Dict (PyVal F)))) (k0 k : BoxM F) : Prop where
  keys : Dict.keys k.pam = Dict.keys k0.pam
  pam : ∀ x, (x ∈ Dict.keys (boxRequired (F := F)) → ∀ q ∈ qs, ¬ BoxGives q x) → get? k.pam x = get? k0.pam x

/-- The box model of a new instance and that of a used one, during a run. -/
def BoxRel (_st : Prop) (_z : ℤ) (a a' : BoxM F) : Prop :=
  a'.pools = a.pools ∧ ∀ x, get? a'.pam x = get? a.pam x

theorem box_fresh_rel {qs : List (Option (Dict (PyVal F)))} {q : Option (Dict (PyVal F))} {k0 k : BoxM F}
    (hk : BoxKept qs k0 k) (hq : ∀ x ∈ Dict.keys (boxRequired (F := F)), (∃ q' ∈ qs, BoxGives q' x) → BoxGives q x)
    (ns ne : ℤ) :
    (∀ (st : Prop) c c', boxOps.reset k0 q = .ok c → boxOps.reset k q = .ok c' → BoxRel st ns c c') ∧
    (∀ st : Prop, st → ∀ (z : ℤ) (a a' : BoxM F) fb, ns ≤ z → z ≤ ne → BoxRel st z a a' → StepTo boxOps (BoxRel st (z + 1)) z fb a a') ∧
    ∀ st : Prop, ¬ st → ∀ (z : ℤ) (a a' : BoxM F), ns ≤ z → BoxRel st z a a' → BoxRel st (z + 1) a a' := by
  refine ⟨?_, ?_, fun _ _ _ _ _ _ h => h⟩
  · intro _ c c' e e'
    simp only [boxOps, boxReset, Except.ok.injEq] at e e'
    subst e e'
    refine ⟨rfl, fun x => ?_⟩
    simp only
    have old : (∀ q' ∈ qs, ¬ BoxGives q' x) ∨ x ∉ Dict.keys (boxRequired (F := F)) → get? k.pam x = get? k0.pam x := by
      intro h
      apply hk.pam
      intro hx q' hq' hg
      rcases h with h | h
      · exact h q' hq' hg
      · exact h hx
    cases q with
    | none =>
      apply old
      by_cases hx : x ∈ Dict.keys (boxRequired (F := F))
      · left
        intro q' hq' hg
        obtain ⟨new, hn, -⟩ := hq x hx ⟨q', hq', hg⟩
        cases hn
      · exact Or.inr hx
    | some new =>
      simp only [updatePamIfNumeric]
      apply updatePam_congr
      · rw [hk.keys]
      · by_cases hx : x ∈ Dict.keys (boxRequired (F := F))
        · by_cases hg : ∃ q' ∈ qs, BoxGives q' x
          · obtain ⟨new', hn, hg'⟩ := hq x hx hg
            cases hn
            exact Or.inl ⟨hx, hg'⟩
          · right
            apply old
            left
            intro q' hq' h
            exact hg ⟨q', hq', h⟩
        · exact Or.inr (old (Or.inr hx))
  · rintro _ _ z a a' fb _ _ ⟨h1, h2⟩ em r r' e e'
    simp only [boxOps, boxStep, bind_eq_ok] at e e'
    obtain ⟨p, hp, e⟩ := e
    obtain ⟨p', hp', e'⟩ := e'
    have hpp : boxPams a' = boxPams a := by
      unfold boxPams
      simp only [pamF_congr h2]
    rw [hpp, hp, Except.ok.injEq] at hp'
    subst hp'
    rw [pure_ok, Except.ok.injEq] at e e'
    subst e e'
    simp only [h1]
    exact ⟨trivial, rfl, h2⟩

theorem box_fresh {qs : List (Option (Dict (PyVal F)))} {q : Option (Dict (PyVal F))} {k0 k : BoxM F}
    (hk : BoxKept qs k0 k) (hq : ∀ x ∈ Dict.keys (boxRequired (F := F)), (∃ q' ∈ qs, BoxGives q' x) → BoxGives q x)
    (ns ne : ℤ) : CarbonFresh boxOps ns ne q k0 k :=
  let ⟨c1, c2, c3⟩ := box_fresh_rel hk hq ns ne
  ⟨_, c1, c2, c3⟩

theorem box_step {k : BoxM F} {y : ℤ} {em : F} {fb : Option (Dict F)} {r : F × BoxM F}
    (e : boxOps.step k y em fb = .ok r) : r.2.pam = k.pam := by
  simp only [boxOps, boxStep, bind_eq_ok] at e
  obtain ⟨p, hp, e⟩ := e
  rw [pure_ok, Except.ok.injEq] at e
  subst e
  rfl

theorem box_reset {qs : List (Option (Dict (PyVal F)))} {k0 k k' : BoxM F} {q : Option (Dict (PyVal F))}
    (hq : q ∈ qs) (hk : BoxKept qs k0 k) (e : boxOps.reset k q = .ok k') : BoxKept qs k0 k' := by
  simp only [boxOps, boxReset, Except.ok.injEq] at e
  subst e
  cases q with
  | none => exact ⟨hk.keys, hk.pam⟩
  | some new =>
    refine ⟨?_, ?_⟩
    · simp only [updatePamIfNumeric]
      rw [keys_updatePam_foldl, hk.keys]
    · intro x hx
      simp only [updatePamIfNumeric]
      rw [updatePam_keep _ _ _ _ (fun hm hg => hx hm _ hq ⟨new, rfl, hg⟩), hk.pam x hx]

/-! ## Default model -/

omit [LT F] [DecidableLT F] in
/-- The first sub-step does not read the concentration. -/
theorem subStep_zero [LT F] [DecidableLT F] (p : Carbon.Pams F) (f em x : F) (st : Carbon.State F) :
    Carbon.subStep p f em { st with xCO2 := x } 0 = Carbon.subStep p f em st 0 := by
  unfold Carbon.subStep
  simp only [lt_irrefl, if_false, if_true]
  rfl

/-- The values a reset leaves equal. -/
structure HoldEq (a a' : Carbon.State F) : Prop where
  yCO2 : a'.yCO2 = a.yCO2
  sCO2 : a'.sCO2 = a.sCO2
  emCO2_prev : a'.emCO2_prev = a.emCO2_prev
  dfnpp : a'.dfnpp = a.dfnpp
  ss1 : a'.ss1 = a.ss1
  sums : a'.sums = a.sums

theorem co2em2conc_congr (p : Carbon.Pams F) {a a' : Carbon.State F} (h : HoldEq a a') (yrix : ℕ) (em : F)
    (fb : Option F) (hp : 0 < p.idtm) (hx : 0 < yrix → a'.xCO2 = a.xCO2) :
    Carbon.co2em2conc p a' yrix em fb = Carbon.co2em2conc p a yrix em fb := by
  obtain ⟨y, x, s, e, d, s1, su, so, ml⟩ := a
  obtain ⟨y', x', s', e', d', s1', su', so', ml'⟩ := a'
  obtain ⟨rfl, rfl, rfl, rfl, rfl, rfl⟩ := h
  unfold Carbon.co2em2conc
  simp only
  obtain ⟨n, hn⟩ : ∃ n, p.idtm = n + 1 := ⟨p.idtm - 1, by omega⟩
  by_cases hy : 0 < yrix
  · have := hx hy
    simp only at this
    subst this
    rfl
  · have hy0 : yrix = 0 := by omega
    subst hy0
    rw [hn, List.range_succ_eq_map, List.foldl_cons, List.foldl_cons]
    congr 1
    rw [Nat.zero_mul, Nat.zero_add]
    exact subStep_zero p _ em x' ⟨y', x, s', e', d', s1', su', _, _⟩

theorem irNewPam_get? (pam new : Dict (PyVal F)) (x : String) :
    get? (irNewPam pam new) x =
      if x = "rs_function" ∨ x = "rb_function" then (get? new x).or (get? pam x)
      else get? (new.foldl (updatePamStep (irRequired (F := F)).keys) pam) x := by
  unfold irNewPam
  simp only [List.foldl_cons, List.foldl_nil, updatePamIfNumeric]
  have hkeep : ∀ y, y = "rs_function" ∨ y = "rb_function" →
      get? (new.foldl (updatePamStep (irRequired (F := F)).keys) pam) y = get? pam y := by
    intro y hy
    apply updatePam_keep
    intro hm
    exfalso
    simp only [irRequired, Dict.keys, List.map_cons, List.map_nil, List.mem_cons, List.not_mem_nil, or_false] at hm
    rcases hy with rfl | rfl <;> simp at hm
  have htake : ∀ (d : Dict (PyVal F)) (key : String), get? (takeFunction new d key) x =
      if x = key then (get? new x).or (get? d x) else get? d x := by
    intro d key
    unfold takeFunction
    cases hn : get? new key with
    | none =>
      by_cases hk : x = key
      · subst hk; rw [if_pos rfl, hn]; rfl
      · rw [if_neg hk]
    | some v =>
      simp only
      rw [get?_set]
      by_cases hk : x = key
      · subst hk; rw [if_pos rfl, if_pos rfl, hn]; rfl
      · rw [if_neg hk, if_neg (fun e => hk e.symm)]
  rw [htake, htake]
  by_cases h1 : x = "rb_function"
  · subst h1
    rw [if_pos rfl, if_neg (by decide), if_pos (Or.inr rfl), hkeep _ (Or.inr rfl)]
  · rw [if_neg h1]
    by_cases h2 : x = "rs_function"
    · subst h2
      rw [if_pos rfl, if_pos (Or.inl rfl), hkeep _ (Or.inl rfl)]
    · rw [if_neg h2, if_neg (by tauto)]

/-- The response arrays belong to the parameters. -/
structure IRFuns (k : IR F) : Prop where
  rs : rsOf k.pam k.idtm.toNat = .ok k.rs
  rb : rbOf k.pam k.idtm.toNat = .ok k.rb

theorem precalcR_spec {k k' : IR F} (e : precalcR k = .ok k') :
    IRFuns k' ∧ k' = { k with rs := k'.rs, rb := k'.rb } := by
  unfold precalcR at e
  simp only [bind_eq_ok] at e
  obtain ⟨rs, h1, rb, h2, e⟩ := e
  rw [pure_ok, Except.ok.injEq] at e
  subst e
  exact ⟨⟨h1, h2⟩, rfl⟩

theorem rsOf_congr {d d' : Dict (PyVal F)} (h : get? d' "rs_function" = get? d "rs_function") (n : ℕ) :
    rsOf d' n = rsOf d n := by unfold rsOf; rw [h]

theorem rbOf_congr {d d' : Dict (PyVal F)} (h : get? d' "rb_function" = get? d "rb_function") (n : ℕ) :
    rbOf d' n = rbOf d n := by unfold rbOf; rw [h]

/-- The hold values of a reset (the concentration and the feedback values are not compared). -/
def zeroHold : Carbon.State F :=
  { yCO2 := 0.0, xCO2 := 0.0, sCO2 := fun _ => 0.0, emCO2_prev := 0.0, dfnpp := fun _ => 0.0, ss1 := 0.0,
    sums := 0.0, solFb := 0.0, mlFb := 0.0 }

/-- What a reset does. -/
theorem irReset_spec {k k' : IR F} {q : Option (Dict (PyVal F))} (e : irReset k q = .ok k') :
    k'.idtm = k.idtm ∧ k'.nystart = k.nystart ∧ k'.years_tot = k.years_tot ∧ (IRFuns k → IRFuns k') ∧
    HoldEq zeroHold k'.hold ∧
    ((q = none ∧ k'.pam = k.pam) ∨
     ∃ p new, q = some p ∧ processFlat p = .ok new ∧ k'.pam = irNewPam k.pam new) := by
  unfold irReset at e
  rw [bind_eq_ok] at e
  obtain ⟨m, hm, e⟩ := e
  unfold resetHold at hm
  rw [bind_eq_ok] at hm
  obtain ⟨pre, hpre, hm⟩ := hm
  split at hm
  · cases hm
  · rw [pure_ok, Except.ok.injEq] at hm
    cases q with
    | none =>
      simp only [Except.ok.injEq] at e
      subst e hm
      exact ⟨rfl, rfl, rfl, fun f => ⟨f.rs, f.rb⟩, ⟨rfl, rfl, rfl, rfl, rfl, rfl⟩, Or.inl ⟨rfl, rfl⟩⟩
    | some p =>
      simp only at e
      unfold irUpdate at e
      rw [bind_eq_ok] at e
      obtain ⟨new, hnew, e⟩ := e
      simp only at e
      split at e
      · obtain ⟨f, hk'⟩ := precalcR_spec e
        refine ⟨?_, ?_, ?_, fun _ => f, ?_, Or.inr ⟨p, new, rfl, hnew, ?_⟩⟩
        · rw [hk', ← hm]
        · rw [hk', ← hm]
        · rw [hk', ← hm]
        · rw [hk', ← hm]; exact ⟨rfl, rfl, rfl, rfl, rfl, rfl⟩
        · rw [hk', ← hm]
      · rename_i hno
        rw [Except.ok.injEq] at e
        subst e hm
        simp only [Bool.or_eq_true, not_or] at hno
        have hn : ∀ y, y = "rs_function" ∨ y = "rb_function" → get? (irNewPam k.pam new) y = get? k.pam y := by
          intro y hy
          rw [irNewPam_get?, if_pos hy]
          have : get? new y = none := by
            rw [get?_eq_none_iff, ← has_iff]
            rcases hy with rfl | rfl
            · exact hno.1
            · exact hno.2
          rw [this]; rfl
        refine ⟨rfl, rfl, rfl, ?_, ⟨rfl, rfl, rfl, rfl, rfl, rfl⟩, Or.inr ⟨p, new, rfl, hnew, rfl⟩⟩
        intro f
        constructor
        · simp only; rw [rsOf_congr (hn _ (Or.inl rfl))]; exact f.rs
        · simp only; rw [rbOf_congr (hn _ (Or.inr rfl))]; exact f.rb

/-- The parameters of the default model that earlier runs can change. -/
def irChangeable : List String := Dict.keys (irRequired (F := F)) ++ ["rs_function", "rb_function"]

/-- What earlier runs left of the model object. -/
structure IRKept (qs : List (Option (Dict (PyVal F)))) (k0 k : IR F) : Prop where
  idtm : k.idtm = k0.idtm
  nystart : k.nystart = k0.nystart
  years_tot : k.years_tot = k0.years_tot
  mem : ∀ x, ¬ (x = "rs_function" ∨ x = "rb_function") → (x ∈ Dict.keys k.pam ↔ x ∈ Dict.keys k0.pam)
  pam : ∀ x, (x ∈ irChangeable (F := F) → ∀ q ∈ qs, ¬ IRGives q x) → get? k.pam x = get? k0.pam x
  funs : IRFuns k

theorem irNewPam_mem (pam new : Dict (PyVal F)) (x : String) (hx : ¬ (x = "rs_function" ∨ x = "rb_function")) :
    x ∈ Dict.keys (irNewPam pam new) ↔ x ∈ Dict.keys pam := by
  rw [← get?_isSome_iff, irNewPam_get?, if_neg hx, get?_isSome_iff, keys_updatePam_foldl]

theorem ir_reset {qs : List (Option (Dict (PyVal F)))} {k0 k k' : IR F} {q : Option (Dict (PyVal F))}
    (hq : q ∈ qs) (hk : IRKept qs k0 k) (e : irOps.reset k q = .ok k') : IRKept qs k0 k' := by
  obtain ⟨e1, e2, e3, e4, -, e5⟩ := irReset_spec e
  refine ⟨e1.trans hk.idtm, e2.trans hk.nystart, e3.trans hk.years_tot, ?_, ?_, e4 hk.funs⟩
  · intro x hx
    rcases e5 with ⟨-, e5⟩ | ⟨p, new, -, -, e5⟩
    · rw [e5]; exact hk.mem x hx
    · rw [e5, irNewPam_mem _ _ _ hx]; exact hk.mem x hx
  · intro x hx
    rcases e5 with ⟨-, e5⟩ | ⟨p, new, rfl, hn, e5⟩
    · rw [e5]; exact hk.pam x hx
    · rw [e5, irNewPam_get?]
      by_cases hf : x = "rs_function" ∨ x = "rb_function"
      · rw [if_pos hf]
        have : get? new x = none := by
          rw [get?_eq_none_iff]
          intro hm
          refine hx ?_ _ hq ⟨p, new, rfl, hn, Or.inr ⟨hf, hm⟩⟩
          unfold irChangeable
          rw [List.mem_append]
          right
          rcases hf with rfl | rfl <;> simp
        rw [this]
        exact hk.pam x hx
      · rw [if_neg hf, updatePam_keep, hk.pam x hx]
        intro hm hg
        exact hx (List.mem_append_left _ hm) _ hq ⟨p, new, rfl, hn, Or.inl hg⟩

theorem ir_step {qs : List (Option (Dict (PyVal F)))} {k0 k : IR F} {y : ℤ} {em : F} {fb : Option (Dict F)}
    {r : F × IR F} (hk : IRKept qs k0 k) (e : irOps.step k y em fb = .ok r) : IRKept qs k0 r.2 := by
  simp only [irOps, irStep, bind_eq_ok] at e
  obtain ⟨p, hp, e⟩ := e
  split at e
  · cases e
  · split at e
    · cases e
    · rw [pure_ok, Except.ok.injEq] at e
      subst e
      exact ⟨hk.idtm, hk.nystart, hk.years_tot, hk.mem, hk.pam, ⟨hk.funs.rs, hk.funs.rb⟩⟩

/-- The default model of a new instance and that of a used one, before year `z` of a run; `st`: the run steps it. -/
def IRRel (ns : ℤ) (st : Prop) (z : ℤ) (a a' : IR F) : Prop :=
  a'.idtm = a.idtm ∧ a'.nystart = a.nystart ∧ a'.years_tot = a.years_tot ∧
    (∀ x, get? a'.pam x = get? a.pam x) ∧ a'.rs = a.rs ∧ a'.rb = a.rb ∧ HoldEq a.hold a'.hold ∧
    a.nystart = ns ∧ (st → ns < z → a'.hold.xCO2 = a.hold.xCO2) ∧ (¬ st → HoldEq zeroHold a.hold)

theorem ir_fresh_rel {qs : List (Option (Dict (PyVal F)))} {q : Option (Dict (PyVal F))} {k0 k : IR F}
    (h0 : IRFuns k0) (hk : IRKept qs k0 k)
    (hq : ∀ x ∈ irChangeable (F := F), (∃ q' ∈ qs, IRGives q' x) → IRGives q x)
    (ne : ℤ) :
    (∀ st c c', irOps.reset k0 q = .ok c → irOps.reset k q = .ok c' → IRRel k0.nystart st k0.nystart c c') ∧
    (∀ st, st → ∀ z (a a' : IR F) fb, k0.nystart ≤ z → z ≤ ne → IRRel k0.nystart st z a a' →
      StepTo irOps (IRRel k0.nystart st (z + 1)) z fb a a') ∧
    ∀ st, ¬ st → ∀ z (a a' : IR F), k0.nystart ≤ z → IRRel k0.nystart st z a a' → IRRel k0.nystart st (z + 1) a a' := by
  refine ⟨?_, ?_, ?_⟩
  · intro st c c' e e'
    obtain ⟨e1, e2, e3, e4, e5, e6⟩ := irReset_spec e
    obtain ⟨d1, d2, d3, d4, d5, d6⟩ := irReset_spec e'
    have hold : HoldEq c.hold c'.hold :=
      ⟨by rw [d5.yCO2, e5.yCO2], by rw [d5.sCO2, e5.sCO2], by rw [d5.emCO2_prev, e5.emCO2_prev],
        by rw [d5.dfnpp, e5.dfnpp], by rw [d5.ss1, e5.ss1], by rw [d5.sums, e5.sums]⟩
    have old : ∀ x, (x ∈ irChangeable (F := F) → ¬ IRGives q x) → get? k.pam x = get? k0.pam x := by
      intro x hx
      apply hk.pam
      intro hm q' hq' hg
      exact hx hm (hq x hm ⟨q', hq', hg⟩)
    have hpam : ∀ x, get? c'.pam x = get? c.pam x := by
      intro x
      rcases e6 with ⟨rfl, e6⟩ | ⟨p, new, rfl, hn, e6⟩
      · rcases d6 with ⟨-, d6⟩ | ⟨p, new, h, -⟩
        · rw [d6, e6]
          apply old
          rintro - ⟨p, new, h, -⟩
          cases h
        · cases h
      · rcases d6 with ⟨h, -⟩ | ⟨p', new', h, hn', d6⟩
        · cases h
        · cases h
          rw [hn, Except.ok.injEq] at hn'
          subst hn'
          rw [d6, e6, irNewPam_get?, irNewPam_get?]
          by_cases hf : x = "rs_function" ∨ x = "rb_function"
          · rw [if_pos hf, if_pos hf]
            cases hx : get? new x with
            | some v => rfl
            | none =>
              simp only [Option.none_or]
              apply old
              rintro hm ⟨p', new', h, hn', hg⟩
              cases h
              rw [hn, Except.ok.injEq] at hn'
              subst hn'
              rw [get?_eq_none_iff] at hx
              rcases hg with ⟨v, hv, -⟩ | ⟨-, hg⟩
              · exact hx (List.mem_map.2 ⟨_, hv, rfl⟩)
              · exact hx hg
          · rw [if_neg hf, if_neg hf]
            apply updatePam_congr _ _ _ _ _ (hk.mem x hf)
            by_cases hg : x ∈ Dict.keys (irRequired (F := F)) ∧ GivesNumber new x
            · exact Or.inl hg
            · right
              apply old
              rintro hm ⟨p', new', h, hn', hg'⟩
              cases h
              rw [hn, Except.ok.injEq] at hn'
              subst hn'
              rcases hg' with hg' | ⟨hg', -⟩
              · unfold irChangeable at hm
                rcases List.mem_append.1 hm with hm | hm
                · exact hg ⟨hm, hg'⟩
                · simp only [List.mem_cons, List.not_mem_nil, or_false] at hm
                  exact hf hm
              · exact hf hg'
    have f := e4 h0
    have f' := d4 hk.funs
    have hid : c'.idtm = c.idtm := by rw [d1, e1, hk.idtm]
    refine ⟨hid, by rw [d2, e2, hk.nystart], by rw [d3, e3, hk.years_tot], hpam, ?_, ?_, hold, e2, fun _ h => absurd h (lt_irrefl _), fun _ => e5⟩
    · have := f'.rs
      rw [rsOf_congr (hpam _), hid, f.rs, Except.ok.injEq] at this
      exact this.symm
    · have := f'.rb
      rw [rbOf_congr (hpam _), hid, f.rb, Except.ok.injEq] at this
      exact this.symm
  · rintro st hst z a a' fb hz _ ⟨h1, h2, h3, h4, h5, h6, h7, h8, h9, h10⟩ em r r' e e'
    simp only [irOps, irStep, bind_eq_ok] at e e'
    obtain ⟨p, hp, e⟩ := e
    obtain ⟨p', hp', e'⟩ := e'
    have hpp : irPams a' = irPams a := by
      unfold irPams
      simp only [pamF_congr h4, h1, h3, h5, h6]
    rw [hpp, hp, Except.ok.injEq] at hp'
    subst hp'
    rw [h1] at e'
    split at e
    · cases e
    · rename_i hpos
      rw [if_neg hpos, h2, h3] at e'
      split at e
      · cases e
      · rename_i hrange
        rw [if_neg hrange] at e'
        rw [pure_ok, Except.ok.injEq] at e e'
        have hidt : p.idtm = a.idtm.toNat := by
          unfold irPams at hp
          simp only [bind_eq_ok] at hp
          obtain ⟨_, _, _, _, _, _, _, _, _, _, _, _, _, _, _, _, _, _, _, _, _, _, _, _, _, _, hp⟩ := hp
          rw [pure_ok, Except.ok.injEq] at hp
          subst hp
          rfl
        have hc := co2em2conc_congr p h7 (z - a.nystart).toNat em (fb.bind (fun d => d.get? "dtemp"))
          (by rw [hidt]; omega) (fun hy => h9 hst (by omega))
        rw [hc] at e'
        subst e e'
        refine ⟨rfl, rfl, rfl, rfl, h4, h5, h6, ⟨rfl, rfl, rfl, rfl, rfl, rfl⟩, h8, fun _ _ => rfl, fun h => absurd hst h⟩
  · rintro st hst z a a' _ ⟨h1, h2, h3, h4, h5, h6, h7, h8, h9, h10⟩
    exact ⟨h1, h2, h3, h4, h5, h6, h7, h8, fun h => absurd h hst, h10⟩

theorem ir_fresh {qs : List (Option (Dict (PyVal F)))} {q : Option (Dict (PyVal F))} {k0 k : IR F}
    (h0 : IRFuns k0) (hk : IRKept qs k0 k)
    (hq : ∀ x ∈ irChangeable (F := F), (∃ q' ∈ qs, IRGives q' x) → IRGives q x)
    (ne : ℤ) : CarbonFresh irOps k0.nystart ne q k0 k :=
  let ⟨c1, c2, c3⟩ := ir_fresh_rel h0 hk hq ne
  ⟨_, c1, c2, c3⟩

/-! ## The default model of a new instance -/

omit [Add F] [Sub F] [Mul F] [Div F] [Neg F] [OfScientific F] [LT F] [DecidableLT F] [MathFn F] in
theorem WF_cut (req d : Dict (PyVal F)) : WF (cutNonRequired req d) := by
  unfold cutNonRequired
  have key : ∀ acc : Dict (PyVal F), WF acc →
      WF (d.foldl (fun new p => if req.has p.1 then new.set p.1 p.2 else new) acc) := by
    induction d with
    | nil => exact fun _ h => h
    | cons p d ih =>
      intro acc h
      rw [List.foldl_cons]
      apply ih
      split
      · exact WF_set _ _ _ h
      · exact h
  exact key [] WF_nil

omit [Add F] [Sub F] [Mul F] [LT F] [DecidableLT F] [MathFn F] in
theorem WF_handlerRequired : WF (Factory.handlerRequired (F := F)) := by
  unfold WF
  simp only [Factory.handlerRequired, Dict.keys, List.map_cons, List.map_nil]
  decide

omit [Add F] [Sub F] [Mul F] [LT F] [DecidableLT F] [MathFn F] in
theorem WF_checkPamset (p : Option (Dict (PyVal F))) : WF (Factory.checkPamset p) := by
  unfold Factory.checkPamset cutAndCheckPamset
  exact WF_checkNumericPamset _ _ (WF_cut _ _)

omit [Add F] [Sub F] [Mul F] [LT F] [DecidableLT F] [MathFn F] in
theorem checkPamset_isNum (p : Option (Dict (PyVal F))) {k : String} {v : PyVal F}
    (hk : k ∈ Dict.keys (Factory.handlerRequired (F := F)))
    (h : get? (Factory.checkPamset p) k = some v) : v.isNum = true := by
  unfold Factory.checkPamset cutAndCheckPamset at h
  rw [get?_checkNumericPamset WF_handlerRequired] at h
  obtain ⟨dv, hd⟩ := (get?_isSome_iff _ _).2 hk
  have hdn : dv.isNum = true := by
    have hm := mem_of_get? hd
    simp only [Factory.handlerRequired, List.mem_cons, Prod.mk.injEq, List.not_mem_nil, or_false] at hm
    rcases hm with hm | hm | hm | hm | hm | hm | hm | hm | hm | hm | hm | hm | hm | hm | hm <;> rw [hm.2] <;> rfl
  rw [hd] at h
  simp only at h
  split at h
  · split at h
    · rename_i hv
      rw [Option.some.injEq] at h
      subst h
      exact hv
    · rw [Option.some.injEq] at h
      subst h
      exact hdn
  · rw [Option.some.injEq] at h
    subst h
    exact hdn

/-- The time parameters of the carbon cycle are those of the checked set. -/
theorem time_pam (p : Option (Dict (PyVal F))) (b : PyVal F) {k : String}
    (hk : k ∈ ["idtm", "nystart", "nyend"]) {n : ℤ} (h : pamI (Factory.checkPamset p) k = .ok n) :
    pamI (cutAndCheckPamset timeRequired (Dict.set (Factory.checkPamset p) "conc_run" b) []) k = .ok n := by
  have hkr : k ∈ Dict.keys (Factory.handlerRequired (F := F)) := by
    simp only [List.mem_cons, List.not_mem_nil, or_false] at hk
    simp only [Factory.handlerRequired, Dict.keys, List.map_cons, List.map_nil, List.mem_cons]
    rcases hk with rfl | rfl | rfl <;> simp
  have hkt : k ∈ Dict.keys (timeRequired (F := F)) := by
    simp only [List.mem_cons, List.not_mem_nil, or_false] at hk
    simp only [timeRequired, Dict.keys, List.map_cons, List.map_nil, List.mem_cons]
    rcases hk with rfl | rfl | rfl <;> simp
  have hne : "conc_run" ≠ k := by
    simp only [List.mem_cons, List.not_mem_nil, or_false] at hk
    rcases hk with rfl | rfl | rfl <;> decide
  have hwf : WF (timeRequired (F := F)) := by
    unfold WF; simp only [timeRequired, Dict.keys, List.map_cons, List.map_nil]; decide
  unfold pamI Dict.getE at h ⊢
  cases hg : get? (Factory.checkPamset p) k with
  | none => rw [hg] at h; simp [bind_error] at h
  | some v =>
    rw [hg] at h
    have hnum := checkPamset_isNum p hkr hg
    have : get? (cutAndCheckPamset timeRequired (Dict.set (Factory.checkPamset p) "conc_run" b) []) k = some v := by
      unfold cutAndCheckPamset
      obtain ⟨dv, hd⟩ := (get?_isSome_iff _ _).2 hkt
      rw [get?_checkNumericPamset hwf, hd, get?_cutNonRequired _ _ (WF_set _ _ _ (WF_checkPamset p)),
        if_pos (by rw [mem_keys_usedKeys]; exact Or.inr hkt), get?_set, if_neg hne, hg]
      simp only
      rw [if_pos hnum]
    rw [this]
    exact h

theorem ir_construct {i : Inputs F} {pamset carb : Option (Dict (PyVal F))} {h0 : Handler F (IR F)}
    (hc : construct irOps i pamset carb = .ok h0) {ns ne : ℤ}
    (hns : pamI (Factory.checkPamset pamset) "nystart" = .ok ns)
    (hne : pamI (Factory.checkPamset pamset) "nyend" = .ok ne) :
    IRFuns h0.carbon ∧ h0.carbon.nystart = ns ∧ h0.carbon.years_tot = ne - ns + 1 ∧
      pamI (Factory.checkPamset pamset) "idtm" = .ok h0.carbon.idtm := by
  obtain ⟨ns1, ne1, emis, clbr, prec, pre, k0, k, h1, h2, -, -, -, -, h7, h8, rfl⟩ := construct_spec hc
  rw [h1, Except.ok.injEq] at hns
  rw [h2, Except.ok.injEq] at hne
  subst hns hne
  simp only [irOps] at h8
  obtain ⟨e1, e2, e3, e4, -, -⟩ := irReset_spec h8
  simp only [irOps, irCreate, bind_eq_ok] at h7
  obtain ⟨p, _, pam, _, idtm, t1, ns, t2, ne, t3, h7⟩ := h7
  rw [time_pam pamset _ (by simp) h1, Except.ok.injEq] at t2
  rw [time_pam pamset _ (by simp) h2, Except.ok.injEq] at t3
  subst t2 t3
  split at h7
  · cases h7
  · simp only [bind_eq_ok] at h7
    obtain ⟨mixed, _, m, hm, h7⟩ := h7
    obtain ⟨f, hk0⟩ := precalcR_spec h7
    obtain ⟨g1, g2, g3, -⟩ := irReset_spec hm
    refine ⟨e4 f, ?_, ?_, ?_⟩
    · simp only; rw [e2, hk0]; exact g2
    · simp only; rw [e3, hk0]; exact g3
    · simp only
      rw [e1, hk0]
      simp only
      rw [g1]
      simp only
      have : ∃ n, pamI (Factory.checkPamset pamset) "idtm" = .ok n := by
        unfold pamI Dict.getE at t1 ⊢
        have hk : "idtm" ∈ Dict.keys (Factory.checkPamset pamset) := by
          rw [mem_keys_checkPamset]
          left
          unfold Factory.checkPamset cutAndCheckPamset
          rw [mem_keys_checkNumeric]
          left
          simp [Factory.handlerRequired, Dict.keys]
        obtain ⟨v, hv⟩ := (get?_isSome_iff _ _).2 hk
        rw [hv, bind_ok]
        have hnum := checkPamset_isNum pamset (by simp [Factory.handlerRequired, Dict.keys]) hv
        have hwf : WF (timeRequired (F := F)) := by
          unfold WF; simp only [timeRequired, Dict.keys, List.map_cons, List.map_nil]; decide
        have : get? (cutAndCheckPamset timeRequired
            (Dict.set (Factory.checkPamset pamset) "conc_run" (.bool i.concRun)) []) "idtm" = some v := by
          unfold cutAndCheckPamset
          rw [get?_checkNumericPamset hwf, get?_cutNonRequired _ _ (WF_set _ _ _ (WF_checkPamset pamset)),
            if_pos (by rw [mem_keys_usedKeys]; right; simp [timeRequired, Dict.keys]), get?_set,
            if_neg (by decide), hv]
          simp only [timeRequired, get?_cons, if_true, hnum]
        rw [this, bind_ok] at t1
        exact ⟨_, t1⟩
      obtain ⟨n, hn⟩ := this
      rw [time_pam pamset _ (by simp) hn, Except.ok.injEq] at t1
      rw [hn, t1]

end
end Verif.Model.CarbonInst
