import Verif.Lemmas.AgreeRun
import Verif.Spec.History

/-! # The state of an instance after earlier runs -/

namespace Verif.Model.Driver
open Verif.Py Verif.Py.Dict Verif.Model Verif.Model.Handler Verif.Spec

/-! ## Which parameters a checked set contains -/

section
variable {F : Type}

theorem mem_keys_cut (req d : Dict (PyVal F)) (k : String) :
    k ∈ keys (cutNonRequired req d) ↔ k ∈ keys req ∧ k ∈ keys d := by
  unfold cutNonRequired
  have key : ∀ acc : Dict (PyVal F), k ∈ keys (d.foldl (fun new p => if req.has p.1 then new.set p.1 p.2 else new)
      acc) ↔ k ∈ keys acc ∨ (k ∈ keys req ∧ k ∈ keys d) := by
    induction d with
    | nil => intro acc; simp [keys]
    | cons p d ih =>
      intro acc
      rw [List.foldl_cons, ih]
      have hd : k ∈ keys (p :: d) ↔ k = p.1 ∨ k ∈ keys d := by simp [keys]
      rw [hd]
      by_cases hp : req.has p.1 = true
      · rw [if_pos hp, mem_keys_set]
        have := (has_iff _ _).1 hp
        constructor
        · rintro ((rfl | h) | h)
          · exact Or.inr ⟨this, Or.inl rfl⟩
          · exact Or.inl h
          · exact Or.inr ⟨h.1, Or.inr h.2⟩
        · rintro (h | ⟨h, rfl | h'⟩)
          · exact Or.inl (Or.inr h)
          · exact Or.inl (Or.inl rfl)
          · exact Or.inr ⟨h, h'⟩
      · rw [if_neg hp]
        constructor
        · rintro (h | h)
          · exact Or.inl h
          · exact Or.inr ⟨h.1, Or.inr h.2⟩
        · rintro (h | ⟨h, rfl | h'⟩)
          · exact Or.inl h
          · exact absurd ((has_iff _ _).2 h) hp
          · exact Or.inr ⟨h, h'⟩
  rw [key []]
  simp [keys]

theorem mem_keys_checkNumeric (req d : Dict (PyVal F)) (k : String) :
    k ∈ keys (checkNumericPamset req d) ↔ k ∈ keys req ∨ k ∈ keys d := by
  unfold checkNumericPamset
  induction req generalizing d with
  | nil => simp [keys]
  | cons p req ih =>
    rw [List.foldl_cons, ih]
    have hr : k ∈ keys (p :: req) ↔ k = p.1 ∨ k ∈ keys req := by simp [keys]
    have hs : k ∈ keys (checkNumericStep d p) ↔ k = p.1 ∨ k ∈ keys d := by
      rw [← get?_isSome_iff, ← get?_isSome_iff, get?_checkNumericStep]
      by_cases h : p.1 = k
      · rw [if_pos h]
        refine ⟨fun _ => Or.inl h.symm, fun _ => ?_⟩
        split
        · split <;> exact ⟨_, rfl⟩
        · exact ⟨_, rfl⟩
      · rw [if_neg h]
        constructor
        · exact Or.inr
        · rintro (h' | h')
          · exact absurd h'.symm h
          · exact h'
    rw [hr, hs]
    tauto

variable [OfScientific F] [Neg F] [Div F]

theorem mem_keys_checkPamset (p : Option (Dict (PyVal F))) (k : String) :
    k ∈ keys (Factory.checkPamset p) ↔ k ∈ keys (Factory.checkPamset (F := F) none) ∨
      k = "just_one" ∧ k ∈ keys (p.getD []) := by
  have h1 : ∀ q : Dict (PyVal F), k ∈ keys (cutAndCheckPamset Factory.handlerRequired q Factory.handlerUsed) ↔
      k ∈ keys (Factory.handlerRequired (F := F)) ∨
        (k = "lifetime_mode" ∨ k = "just_one" ∨ k = "carbon_cycle_model") ∧ k ∈ keys q := by
    intro q
    unfold cutAndCheckPamset
    rw [mem_keys_checkNumeric, mem_keys_cut, mem_keys_usedKeys]
    simp only [Factory.handlerUsed, Factory.handlerRequired, keys, List.map_cons, List.map_nil, List.mem_cons,
      List.not_mem_nil, or_false]
    tauto
  have h2 : ∀ q : Dict (PyVal F), ∀ a v, k ∈ keys (if q.has a then q else q.set a v) ↔ k = a ∨ k ∈ keys q := by
    intro q a v
    split
    · rename_i h
      refine ⟨Or.inr, ?_⟩
      rintro (rfl | h')
      · exact (has_iff _ _).1 h
      · exact h'
    · rw [mem_keys_set]
  unfold Factory.checkPamset
  simp only [h1, h2, Option.getD_none]
  simp only [keys, List.map_nil, List.not_mem_nil, or_false]
  by_cases hj : k = "just_one"
  · subst hj; simp
  · simp only [hj, false_or, false_and, or_false]
    tauto

end

/-! ## What a run leaves behind -/

section
variable {F κ τ : Type} [Add F] [Sub F] [Mul F] [Div F] [Neg F] [OfScientific F] [LT F] [DecidableLT F]
  [MathFn F]

/-- A property of the carbon cycle kept by every step is kept by a year. -/
theorem emi2conc_carbon {ops : CarbonOps F κ} {P : κ → Prop}
    (hP : ∀ k y em fb r, P k → ops.step k y em fb = .ok r → P r.2)
    {h h' : Handler F κ} {yr : ℤ} {fb : Option (Dict F)} (e : emi2conc ops h yr fb = .ok h')
    (h0 : P h.carbon) : P h'.carbon := by
  obtain ⟨run, _, ⟨_, e⟩ | ⟨_, es, _, ⟨_, e⟩ | ⟨_, e⟩⟩⟩ := emi2conc_cases e
  · rw [(fillOneRow_spec e).2.2.1]; exact h0
  · obtain ⟨-, -, -, -, ⟨em, r, -, hr, hc, -⟩, -⟩ := beforeEmstart_spec e
    rw [hc]; exact hP _ _ _ _ _ h0 hr
  · refine foldlM_inv (fun b : Handler F κ => P b.carbon) ?_ _ (addRowOfZeros h yr) _ h0 e
    intro b t b' hb hx
    obtain ⟨g, _, ⟨_, rfl⟩ | ⟨_, ht, hx⟩ | ⟨_, ht, hx⟩⟩ := tracerStep_spec hx
    · exact hb
    · obtain ⟨-, -, -, em, r, -, hr, hc, -⟩ := co2Step_spec hx
      rw [hc]; exact hP _ _ _ _ _ hb hr
    · rw [(otherStep_spec hx).2.2.1]; exact hb

/-- The handler after a run: the handler after the reset, with the same fixed data, and a carbon cycle
obtained from the reset one by steps. -/
theorem run_handler_spec {cops : CarbonOps F κ} {tops : ThermalOps F τ} {d d1 : Driver F κ}
    {p : RunPams F} {t : τ} {h : Handler F κ} (hd : d.source = .handler h)
    (hr : run cops tops d p = .ok (d1, t)) :
    ∃ g h1, resetWithNewPams cops h p.emiconc p.carbon = .ok g ∧ d1.source = .handler h1 ∧ Same g h1 ∧
      h1.gas.keys = g.gas.keys ∧
      (∀ P : κ → Prop, (∀ k y em fb r, P k → cops.step k y em fb = .ok r → P r.2) → P g.carbon → P h1.carbon) ∧
      d1 = { d with source := d1.source, results := d1.results } := by
  obtain ⟨tr, ht⟩ := run_trace hr
  obtain ⟨H, hreset, hsrc, hyr⟩ := handler_trace ht hd
  have hle : d.nystart ≤ d.nyend + 1 := by
    have := (initialise_spec (startRun_spec ht.start).1).1; omega
  have hlast := ht.last.1
  refine ⟨H d.nystart, H (d.nyend + 1), hreset, ?_, ?_, ?_, ?_, ?_⟩
  · rw [hlast, ← hsrc _ hle (le_refl _)]
  · exact (handler_frozen hyr (le_refl _) hle (le_refl _)).1
  · exact handler_keys hyr hle (le_refl _)
  · intro P hP h0
    have key : ∀ n : ℕ, d.nystart + n ≤ d.nyend + 1 → P (H (d.nystart + n)).carbon := by
      intro n
      induction n with
      | zero => intro _; simpa using h0
      | succ n ih =>
        intro hn
        push_cast at hn
        obtain ⟨m, luc, sun, r, values, vn, vs, hy⟩ := hyr (d.nystart + n) (by omega) (by omega)
        obtain ⟨i, _, _, hc, _⟩ := conc2forc_frame hy.forc
        have e : d.nystart + ((n + 1 : ℕ) : ℤ) = d.nystart + n + 1 := by push_cast; ring
        rw [e]
        have := emi2conc_carbon hP hy.emi (ih (by omega))
        rw [← hc] at this
        exact this
    have := key (d.nyend + 1 - d.nystart).toNat (by omega)
    rwa [show d.nystart + ((d.nyend + 1 - d.nystart).toNat : ℤ) = d.nyend + 1 by omega] at this
  · rw [hlast]

/-! ## The handler before a run, after any history -/

/-- Values that are equal for Python compare equally with every year. -/
def YearLaw (F : Type) [LT F] [DecidableLT F] [MathFn F] : Prop :=
  ∀ a b : PyVal F, PyVal.pyEq a b = true → ∀ yr, yearLt a yr = yearLt b yr

/-- `h` differs from the fresh handler `h0` only in what a reset replaces. `noJust`: no run asked for
a single component. -/
structure Kept (noJust : Prop) (h0 h : Handler F κ) : Prop where
  natCh4 : h.natCh4 = h0.natCh4
  natN2o : h.natN2o = h0.natN2o
  concIn : h.concIn = h0.concIn
  emis : h.emis = h0.emis
  pert : h.pert = h0.pert
  years : h.years = h0.years
  prec : h.prec = h0.prec
  keys : h.gas.keys = h0.gas.keys
  gas : ∀ t, (h.gas.get? t).map (canon t) = (h0.gas.get? t).map (canon t)
  pam : ∀ k, k ∉ Dict.keys (Factory.checkPamset (F := F) none) → k ≠ "just_one" →
    h.pam.get? k = h0.pam.get? k
  just : noJust → h.pam.get? "just_one" = h0.pam.get? "just_one"
  before : ∀ yr, beforeStart h.pam yr = beforeStart h0.pam yr

theorem Kept.refl (J : Prop) (h : Handler F κ) : Kept J h h :=
  ⟨rfl, rfl, rfl, rfl, rfl, rfl, rfl, rfl, fun _ => rfl, fun _ _ _ => rfl, fun _ => rfl, fun _ => rfl⟩

theorem Kept.same {J : Prop} {h0 h h1 : Handler F κ} (a : Kept J h0 h) (s : Same h h1)
    (hk : h1.gas.keys = h.gas.keys) : Kept J h0 h1 where
  natCh4 := by rw [s.natCh4, a.natCh4]
  natN2o := by rw [s.natN2o, a.natN2o]
  concIn := by rw [s.concIn, a.concIn]
  emis := by rw [s.emis, a.emis]
  pert := by rw [s.pert, a.pert]
  years := by rw [s.years, a.years]
  prec := by rw [s.prec, a.prec]
  keys := by rw [hk, a.keys]
  gas := fun t => by rw [s.gas_canon, a.gas]
  pam := by rw [s.pam]; exact a.pam
  just := by rw [s.pam]; exact a.just
  before := by rw [s.pam]; exact a.before

/-- The frozen number a consistency check keeps compares with years as the old one. -/
theorem before_reset (law : YearLaw F) {old new r : Dict (PyVal F)} (gases : List String)
    (e : checkPamsetConsistency old new = .ok r) (yr : ℤ) :
    beforeStart (avoidRegionalDoubleCounting gases r) yr = beforeStart old yr := by
  unfold beforeStart Dict.getE
  rw [avoid_get? _ _ _ (by decide), consistency_get? e, if_pos (by decide)]
  cases hn : get? new "emstart" with
  | none => rfl
  | some v =>
    cases ho : get? old "emstart" with
    | none => rfl
    | some o =>
      simp only [Option.map_some, bind_ok]
      unfold keptValue
      by_cases hv : PyVal.pyEq v o = true
      · rw [if_pos hv]; exact law _ _ hv yr
      · rw [if_neg hv]

theorem aerosol_keys {k : String} (h : k ∈ globalAerosols.map Prod.snd) :
    k ∈ Dict.keys (Factory.checkPamset (F := F) none) := by
  simp only [globalAerosols, List.map_cons, List.map_nil, List.mem_cons, List.not_mem_nil, or_false] at h
  unfold Factory.checkPamset cutAndCheckPamset
  rw [mem_keys_checkNumeric]
  left
  simp only [Factory.handlerRequired, Dict.keys, List.map_cons, List.map_nil, List.mem_cons]
  rcases h with rfl | rfl | rfl <;> simp

theorem cantChange_keys {k : String} (h : k ∈ pamsCantChange)
    (hk : k ∉ Dict.keys (Factory.checkPamset (F := F) none)) : k = "conc_run" := by
  simp only [pamsCantChange, List.mem_cons, List.not_mem_nil, or_false] at h
  unfold Factory.checkPamset cutAndCheckPamset at hk
  rw [mem_keys_checkNumeric, not_or] at hk
  have := hk.1
  simp only [Factory.handlerRequired, Dict.keys, List.map_cons, List.map_nil, List.mem_cons] at this
  rcases h with rfl | rfl | rfl | rfl | rfl
  · simp at this
  · simp at this
  · simp at this
  · simp at this
  · rfl

theorem Kept.reset (law : YearLaw F) {J : Prop} {h0 h g : Handler F κ} (a : Kept J h0 h)
    {cops : CarbonOps F κ} {p q : Option (Dict (PyVal F))} (e : resetWithNewPams cops h p q = .ok g)
    (hJ : J → "just_one" ∉ Dict.keys (p.getD [])) : Kept J h0 g := by
  obtain ⟨pam, c, h1, h2, rfl⟩ := reset_spec e
  have hget : ∀ k, k ∉ Dict.keys (Factory.checkPamset (F := F) none) →
      (k = "just_one" → k ∉ Dict.keys (p.getD [])) →
      (avoidRegionalDoubleCounting h.gas.keys pam).get? k = h.pam.get? k := by
    intro k hk hj
    have hnone : (Factory.checkPamset p).get? k = none := by
      rw [get?_eq_none_iff, mem_keys_checkPamset, not_or]
      exact ⟨hk, fun ⟨x, y⟩ => hj x y⟩
    rw [avoid_get? _ _ _ (fun h => hk (aerosol_keys h)), consistency_get? h1, hnone]
    split <;> rfl
  refine ⟨a.natCh4, a.natN2o, a.concIn, a.emis, a.pert, a.years, a.prec, a.keys, a.gas, ?_, ?_, ?_⟩
  · intro k hk hj
    simp only
    rw [hget k hk (fun x => absurd x hj), a.pam k hk hj]
  · intro hj
    simp only
    rw [hget _ (by
      unfold Factory.checkPamset cutAndCheckPamset
      rw [mem_keys_checkNumeric, mem_keys_cut]
      simp [Factory.handlerRequired, Dict.keys, Dict.has, Dict.get?, Dict.set]) (fun _ => hJ hj), a.just hj]
  · intro yr
    simp only
    rw [before_reset law _ h1, a.before]

theorem Kept.run (law : YearLaw F) {J : Prop} {h0 h : Handler F κ} (a : Kept J h0 h)
    {cops : CarbonOps F κ} {tops : ThermalOps F τ} {d d1 : Driver F κ} {p : RunPams F} {t : τ}
    (hd : d.source = .handler h) (hr : Driver.run cops tops d p = .ok (d1, t))
    (hJ : J → "just_one" ∉ Dict.keys (p.emiconc.getD [])) :
    ∃ h1, d1.source = .handler h1 ∧ Kept J h0 h1 := by
  obtain ⟨g, h1, e, e1, s, hk, -, -⟩ := run_handler_spec hd hr
  exact ⟨h1, e1, (a.reset law e hJ).same s hk⟩

theorem concKeysOf_congr {gas gas' : Dict (Gas F)}
    (h : ∀ t, (gas'.get? t).map (canon t) = (gas.get? t).map (canon t)) (spicy : List String) :
    concKeysOf gas' spicy = concKeysOf gas spicy := by
  unfold concKeysOf
  apply List.filter_congr
  intro t _
  have : (gasOr gas' t).concUnit = (gasOr gas t).concUnit := by
    have ht := h t
    have hc : ∀ g : Gas F, (canon t g).concUnit = g.concUnit := by
      intro g; unfold canon; split <;> rfl
    unfold gasOr
    cases h1 : Dict.get? gas t with
    | none =>
      cases h2 : Dict.get? gas' t with
      | none => rfl
      | some g' => rw [h1, h2] at ht; cases ht
    | some g =>
      cases h2 : Dict.get? gas' t with
      | none => rw [h1, h2] at ht; cases ht
      | some g' =>
        rw [h1, h2] at ht
        simp only [Option.map_some, Option.some.injEq] at ht
        simp only [Option.getD_some]
        rw [← hc g', ht, hc]
  rw [this]

theorem Kept.pamAgree (law : YearLaw F) {J : Prop} {h0 h : Handler F κ} (a : Kept J h0 h)
    {p : Option (Dict (PyVal F))} {r r' : Dict (PyVal F)}
    (e : checkPamsetConsistency h0.pam (Factory.checkPamset p) = .ok r)
    (e' : checkPamsetConsistency h.pam (Factory.checkPamset p) = .ok r')
    (hJ : J ∨ "just_one" ∈ Dict.keys (p.getD [])) :
    PamAgree (avoidRegionalDoubleCounting h0.gas.keys r) (avoidRegionalDoubleCounting h.gas.keys r') := by
  constructor
  · intro k hk
    rw [a.keys]
    apply avoid_congr
    rw [consistency_get? e, consistency_get? e']
    by_cases hc : k ∈ pamsCantChange
    · have hcr : k = "conc_run" := by
        have hs : pamsCantChange = frozenNums ++ ["conc_run"] := rfl
        rw [hs, List.mem_append] at hc
        exact List.mem_singleton.1 (hc.resolve_left hk)
      subst hcr
      have hnot : "conc_run" ∉ Dict.keys (Factory.checkPamset (F := F) none) := by
        unfold Factory.checkPamset cutAndCheckPamset
        rw [mem_keys_checkNumeric, mem_keys_cut, mem_keys_usedKeys]
        simp [Factory.handlerRequired, Factory.handlerUsed, Dict.keys]
      have hnone : (Factory.checkPamset p).get? "conc_run" = none := by
        rw [get?_eq_none_iff, mem_keys_checkPamset, not_or]
        exact ⟨hnot, fun x => absurd x.1 (by decide)⟩
      rw [if_pos hc, if_pos hc, hnone]
      exact a.pam _ hnot (by decide)
    · rw [if_neg hc, if_neg hc]
      cases hn : (Factory.checkPamset p).get? k with
      | some v => rfl
      | none =>
        simp only [Option.none_or]
        rw [get?_eq_none_iff, mem_keys_checkPamset, not_or] at hn
        by_cases hj : k = "just_one"
        · subst hj
          rcases hJ with hJ | hJ
          · exact a.just hJ
          · exact absurd ⟨rfl, hJ⟩ hn.2
        · exact a.pam k hn.1 hj
  · intro yr
    rw [before_reset law _ e, before_reset law _ e', a.before]

/-- Fresh and used handlers agree after a reset with the same sets. -/
theorem Kept.agree (law : YearLaw F) {J : Prop} {h0 h g0 g : Handler F κ} (a : Kept J h0 h)
    {cops : CarbonOps F κ} {p q : Option (Dict (PyVal F))} (e0 : resetWithNewPams cops h0 p q = .ok g0)
    (e : resetWithNewPams cops h p q = .ok g) (hJ : J ∨ "just_one" ∈ Dict.keys (p.getD []))
    {C : κ → κ → Prop} (hC : ∀ c c', cops.reset h0.carbon q = .ok c → cops.reset h.carbon q = .ok c' → C c c')
    (Y : ℤ → Prop) :
    Agree C (fun _ _ => True) (fun _ _ => True) Y g0 g ∧ PrecAgree Y g0.prec g.prec ∧
      g.gas.keys = g0.gas.keys := by
  obtain ⟨pam, c, r1, r2, rfl⟩ := reset_spec e0
  obtain ⟨pam', c', r1', r2', rfl⟩ := reset_spec e
  refine ⟨?_, ?_, a.keys⟩
  · constructor <;> try simp only
    · intro _ _; rw [a.natCh4]
    · intro _ _; rw [a.natN2o]
    · rw [a.concIn]
    · intro _ _ _; rw [a.concIn]
    · intro _ _ _; rw [a.emis]
    · exact a.pamAgree law r1 r1' hJ
    · intro _ _; rw [a.pert]
    · unfold Handler.y0; simp only [a.years]
    · intro y i; unfold Handler.index Handler.y0; simp only [a.years]; exact id
    · rw [a.prec]; exact concKeysOf_congr a.gas _
    · rw [a.prec]
    · exact hC _ _ r2 r2'
    · intro _ _; rw [a.prec]
    · exact fun _ _ _ => trivial
    · exact fun _ _ _ _ _ => trivial
    · exact a.gas
  · simp only
    rw [a.prec]
    exact ⟨rfl, rfl, rfl, fun _ _ _ _ => rfl, fun _ _ _ _ => rfl⟩

/-! ## Re-running -/

/-- A used carbon cycle `k'` is as good as the fresh one `k` for a run with the parameter set `q`:
a relation `C` (depending on whether the run uses the carbon cycle, and on the year) holds after the
reset and is kept by the steps. -/
def CarbonFresh (cops : CarbonOps F κ) (ns ne : ℤ) (q : Option (Dict (PyVal F))) (k k' : κ) : Prop :=
  ∃ C : Prop → ℤ → κ → κ → Prop,
    (∀ st c c', cops.reset k q = .ok c → cops.reset k' q = .ok c' → C st ns c c') ∧
    (∀ st, st → ∀ z a a' fb, ns ≤ z → z ≤ ne → C st z a a' → StepTo cops (C st (z + 1)) z fb a a') ∧
    ∀ st, ¬ st → ∀ z a a', ns ≤ z → C st z a a' → C st (z + 1) a a'

theorem rerun_agree_of (law : YearLaw F) {cops : CarbonOps F κ} {tops : ThermalOps F τ}
    {d0 d d1 d1' : Driver F κ} {h0 h : Handler F κ} {p : RunPams F} {t t' : τ} {J : Prop}
    (hnd : (tops.outputs.map Prod.fst ++ forcOutputList).Nodup)
    (hd0 : d0.source = .handler h0) (hd : d.source = .handler h) (hk : Kept J h0 h)
    (hsame : d = { d0 with source := d.source, results := d.results })
    (hne : d0.nystart ≤ d0.nyend) (hyears : h0.years = pyRange d0.nystart (d0.nyend + 1))
    (hck : (concKeysOf h0.gas h0.prec.spicy).Nodup)
    (hJ : J ∨ "just_one" ∈ Dict.keys (p.emiconc.getD []))
    (hC : ∀ g, resetWithNewPams cops h0 p.emiconc p.carbon = .ok g → ∃ C : ℤ → κ → κ → Prop,
      (∀ c c', cops.reset h0.carbon p.carbon = .ok c → cops.reset h.carbon p.carbon = .ok c' →
        C d0.nystart c c') ∧
      (Steps g → ∀ z a a' fb, d0.nystart ≤ z → z ≤ d0.nyend → C z a a' → StepTo cops (C (z + 1)) z fb a a') ∧
      (¬ Steps g → ∀ z a a', d0.nystart ≤ z → C z a a' → C (z + 1) a a'))
    (hr0 : Driver.run cops tops d0 p = .ok (d1, t)) (hr : Driver.run cops tops d p = .ok (d1', t')) :
    ∃ g g', d1.source = .handler g ∧ d1'.source = .handler g' ∧
    ∀ z, d0.nystart ≤ z → z ≤ d0.nyend →
      (∀ o ∈ tops.outputs.map Prod.fst ++ forcOutputList,
        entry d1'.results o (z - d0.nystart).toNat = entry d1.results o (z - d0.nystart).toNat) ∧
      columnsAt (reportConc g') z = columnsAt (reportConc g) z ∧
      columnsAt (reportForcing g' d0.nystart) z = columnsAt (reportForcing g d0.nystart) z := by
  have hs : SeriesUpTo d0.nyend d0 d := by
    rw [hsame]
    exact ⟨rfl, rfl, rfl, fun _ _ => rfl, fun _ _ => rfl, fun _ _ => rfl, fun _ _ => rfl⟩
  obtain ⟨g, -, hg, -⟩ := run_handler_spec hd0 hr0
  obtain ⟨C, c1, c2, c3⟩ := hC g hg
  have := run_agree (y := d0.nyend) (E := fun _ _ => True) (K := fun _ _ => True) C hnd hs.longer hd0 hd rfl hne
    (by
      intro _ g1 g' e e'
      rw [hg, Except.ok.injEq] at e
      subst e
      obtain ⟨a1, a2, a3⟩ := hk.agree law hg e' hJ (C := C d0.nystart) c1 (· ≤ d0.nyend)
      refine ⟨a1, a2, a3, ?_, ?_, ?_, co2Unit_reset hg, ?_, c2, c3⟩
      · obtain ⟨_, _, _, _, rfl⟩ := reset_spec hg; exact hyears
      · obtain ⟨_, _, _, _, rfl⟩ := reset_spec e'
        rw [show d.nyend = d0.nyend from hs.nyend]
        exact hk.years.trans hyears
      · obtain ⟨_, _, _, _, rfl⟩ := reset_spec hg; exact hck
      · exact ⟨fun a b hab hb => le_trans hab hb, fun _ _ _ => trivial, fun _ _ _ => trivial,
          fun _ _ => trivial, fun _ _ => ⟨fun _ _ => trivial, trivial⟩⟩)
    hr0 hr
  obtain ⟨g, g', e, e', hz⟩ := this
  exact ⟨g, g', e, e', fun z z1 z2 => hz z z1 z2 z2⟩

theorem rerun_agree (law : YearLaw F) {cops : CarbonOps F κ} {tops : ThermalOps F τ}
    {d0 d d1 d1' : Driver F κ} {h0 h : Handler F κ} {p : RunPams F} {t t' : τ} {J : Prop}
    (hnd : (tops.outputs.map Prod.fst ++ forcOutputList).Nodup)
    (hd0 : d0.source = .handler h0) (hd : d.source = .handler h) (hk : Kept J h0 h)
    (hsame : d = { d0 with source := d.source, results := d.results })
    (hne : d0.nystart ≤ d0.nyend) (hyears : h0.years = pyRange d0.nystart (d0.nyend + 1))
    (hck : (concKeysOf h0.gas h0.prec.spicy).Nodup)
    (hJ : J ∨ "just_one" ∈ Dict.keys (p.emiconc.getD []))
    (hC : CarbonFresh cops d0.nystart d0.nyend p.carbon h0.carbon h.carbon)
    (hr0 : Driver.run cops tops d0 p = .ok (d1, t)) (hr : Driver.run cops tops d p = .ok (d1', t')) :
    ∃ g g', d1.source = .handler g ∧ d1'.source = .handler g' ∧
    ∀ z, d0.nystart ≤ z → z ≤ d0.nyend →
      (∀ o ∈ tops.outputs.map Prod.fst ++ forcOutputList,
        entry d1'.results o (z - d0.nystart).toNat = entry d1.results o (z - d0.nystart).toNat) ∧
      columnsAt (reportConc g') z = columnsAt (reportConc g) z ∧
      columnsAt (reportForcing g' d0.nystart) z = columnsAt (reportForcing g d0.nystart) z := by
  obtain ⟨C, c1, c2, c3⟩ := hC
  exact rerun_agree_of law hnd hd0 hd hk hsame hne hyears hck hJ
    (fun g _ => ⟨C (Steps g), c1 _, c2 _, c3 _⟩) hr0 hr

/-- The same with the relation between the carbon cycles at the end. -/
theorem rerun_agree_full (law : YearLaw F) {cops : CarbonOps F κ} {tops : ThermalOps F τ}
    {d0 d d1 d1' : Driver F κ} {h0 h : Handler F κ} {p : RunPams F} {t t' : τ} {J : Prop}
    (hnd : (tops.outputs.map Prod.fst ++ forcOutputList).Nodup)
    (hd0 : d0.source = .handler h0) (hd : d.source = .handler h) (hk : Kept J h0 h)
    (hsame : d = { d0 with source := d.source, results := d.results })
    (hne : d0.nystart ≤ d0.nyend) (hyears : h0.years = pyRange d0.nystart (d0.nyend + 1))
    (hck : (concKeysOf h0.gas h0.prec.spicy).Nodup)
    (hJ : J ∨ "just_one" ∈ Dict.keys (p.emiconc.getD []))
    (C : Prop → ℤ → κ → κ → Prop)
    (c1 : ∀ st c c', cops.reset h0.carbon p.carbon = .ok c → cops.reset h.carbon p.carbon = .ok c' →
      C st d0.nystart c c')
    (c2 : ∀ st, st → ∀ z a a' fb, d0.nystart ≤ z → z ≤ d0.nyend → C st z a a' → StepTo cops (C st (z + 1)) z fb a a')
    (c3 : ∀ st, ¬ st → ∀ z a a', d0.nystart ≤ z → C st z a a' → C st (z + 1) a a')
    (hr0 : Driver.run cops tops d0 p = .ok (d1, t)) (hr : Driver.run cops tops d p = .ok (d1', t')) :
    ∃ g g', d1.source = .handler g ∧ d1'.source = .handler g' ∧
    Agree (C (Steps g) (d0.nyend + 1)) (fun _ _ => True) (fun _ _ => True) (· ≤ d0.nyend) g g' ∧
    ∀ z, d0.nystart ≤ z → z ≤ d0.nyend →
      (∀ o ∈ tops.outputs.map Prod.fst ++ forcOutputList,
        entry d1'.results o (z - d0.nystart).toNat = entry d1.results o (z - d0.nystart).toNat) ∧
      columnsAt (reportConc g') z = columnsAt (reportConc g) z ∧
      columnsAt (reportForcing g' d0.nystart) z = columnsAt (reportForcing g d0.nystart) z := by
  have hs : SeriesUpTo d0.nyend d0 d := by
    rw [hsame]
    exact ⟨rfl, rfl, rfl, fun _ _ => rfl, fun _ _ => rfl, fun _ _ => rfl, fun _ _ => rfl⟩
  obtain ⟨g0, g1, hg, hsrc, sm, -⟩ := run_handler_spec hd0 hr0
  have := run_agree_full (y := d0.nyend) (E := fun _ _ => True) (K := fun _ _ => True) (C (Steps g0)) hnd hs.longer hd0 hd rfl hne
    (by
      intro _ g1 g' e e'
      rw [hg, Except.ok.injEq] at e
      subst e
      obtain ⟨a1, a2, a3⟩ := hk.agree law hg e' hJ (C := C (Steps g0) d0.nystart) (c1 _) (· ≤ d0.nyend)
      refine ⟨a1, a2, a3, ?_, ?_, ?_, co2Unit_reset hg, ?_, c2 _, c3 _⟩
      · obtain ⟨_, _, _, _, rfl⟩ := reset_spec hg; exact hyears
      · obtain ⟨_, _, _, _, rfl⟩ := reset_spec e'
        rw [show d.nyend = d0.nyend from hs.nyend]
        exact hk.years.trans hyears
      · obtain ⟨_, _, _, _, rfl⟩ := reset_spec hg; exact hck
      · exact ⟨fun a b hab hb => le_trans hab hb, fun _ _ _ => trivial, fun _ _ _ => trivial,
          fun _ _ => trivial, fun _ _ => ⟨fun _ _ => trivial, trivial⟩⟩)
    hr0 hr
  obtain ⟨g, g', e, e', ag, hz⟩ := this
  refine ⟨g, g', e, e', ?_, fun z z1 z2 => hz z z1 z2 z2⟩
  rw [hsrc, Source.handler.injEq] at e
  subst e
  rw [propext sm.steps_iff]
  exact ag (le_refl _) hs.nyend

/-- The instance after a history of runs. -/
theorem after_spec (law : YearLaw F) {cops : CarbonOps F κ} {tops : ThermalOps F τ} {d0 d : Driver F κ}
    {ps : List (RunPams F)} {h0 : Handler F κ} (hd0 : d0.source = .handler h0)
    (ha : After cops tops d0 ps d) (P : κ → Prop) (h0P : P h0.carbon)
    (hstep : ∀ k y em fb r, P k → cops.step k y em fb = .ok r → P r.2)
    (hreset : ∀ p ∈ ps, ∀ k k', P k → cops.reset k p.carbon = .ok k' → P k') :
    ∃ h, d.source = .handler h ∧ P h.carbon ∧
      Kept (∀ p ∈ ps, "just_one" ∉ Dict.keys (p.emiconc.getD [])) h0 h ∧
      d = { d0 with source := d.source, results := d.results } := by
  induction ha with
  | fresh => exact ⟨h0, hd0, h0P, Kept.refl _ _, rfl⟩
  | @next ps p d d1 t _ hr ih =>
    obtain ⟨h, hd, hp, hk, hsame⟩ := ih (fun q hq => hreset q (List.mem_append_left _ hq))
    obtain ⟨g, h1, e, e1, s, hkeys, hcar, hsame1⟩ := run_handler_spec hd hr
    refine ⟨h1, e1, ?_, ?_, ?_⟩
    · apply hcar P hstep
      obtain ⟨_, c, _, hc, rfl⟩ := reset_spec e
      exact hreset p (List.mem_append_right _ (List.mem_singleton.2 rfl)) _ _ hp hc
    · have hk' : Kept (∀ q ∈ ps ++ [p], "just_one" ∉ Dict.keys (q.emiconc.getD [])) h0 h :=
        { hk with just := fun hj => hk.just (fun q hq => hj q (List.mem_append_left _ hq)) }
      exact (hk'.reset law e
        (fun hj => hj p (List.mem_append_right _ (List.mem_singleton.2 rfl)))).same s hkeys
    · rw [hsame1, hsame]

end
end Verif.Model.Driver
