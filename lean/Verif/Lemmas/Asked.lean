import Verif.Lemmas.CarbonRun
import Verif.Model.CarbonOut
import Verif.Spec.Asked

/-! # Two instances with the same runs, one of which was also asked for carbon cycle tables -/

namespace Verif.Props
open Verif.Py Verif.Py.Dict Verif.Model Verif.Model.Handler Verif.Model.Driver Verif.Spec
  Verif.Model.CarbonInst Verif.Model.CarbonOut

section
variable {F κ τ : Type} [Add F] [Sub F] [Mul F] [Div F] [Neg F] [OfScientific F] [LT F] [DecidableLT F]
  [MathFn F]

theorem kept_both (law : YearLaw F) {h h' g g' : Handler F κ} (a : Kept True h h') {cops : CarbonOps F κ}
    {p q : Option (Dict (PyVal F))} (e : resetWithNewPams cops h p q = .ok g)
    (e' : resetWithNewPams cops h' p q = .ok g') : Kept True g g' := by
  obtain ⟨pam, c, h1, h2, rfl⟩ := reset_spec e
  obtain ⟨pam', c', h1', h2', rfl⟩ := reset_spec e'
  have hp := a.pamAgree law h1 h1' (Or.inl trivial)
  refine ⟨a.natCh4, a.natN2o, a.concIn, a.emis, a.pert, a.years, a.prec, a.keys, a.gas, ?_, ?_, hp.before⟩
  · intro k hk _
    refine hp.same k (fun hf => ?_)
    have hs : pamsCantChange = frozenNums ++ ["conc_run"] := rfl
    have := cantChange_keys (F := F) (k := k) (by rw [hs]; exact List.mem_append_left _ hf) hk
    subst this
    exact absurd hf (by decide)
  · intro _
    exact hp.same _ (by decide)

theorem kept_same_both {h h' h1 h1' : Handler F κ} (a : Kept True h h') (s : Same h h1) (s' : Same h' h1')
    (hk : h1.gas.keys = h.gas.keys) (hk' : h1'.gas.keys = h'.gas.keys) : Kept True h1 h1' where
  natCh4 := by rw [s'.natCh4, a.natCh4, s.natCh4]
  natN2o := by rw [s'.natN2o, a.natN2o, s.natN2o]
  concIn := by rw [s'.concIn, a.concIn, s.concIn]
  emis := by rw [s'.emis, a.emis, s.emis]
  pert := by rw [s'.pert, a.pert, s.pert]
  years := by rw [s'.years, a.years, s.years]
  prec := by rw [s'.prec, a.prec, s.prec]
  keys := by rw [hk', a.keys, hk]
  gas := fun t => by rw [s'.gas_canon, a.gas, s.gas_canon]
  pam := by rw [s.pam, s'.pam]; exact a.pam
  just := by rw [s.pam, s'.pam]; exact a.just
  before := by rw [s.pam, s'.pam]; exact a.before

theorem kept_carbon {h h' : Handler F κ} (a : Kept True h h') (k : κ) : Kept True h { h' with carbon := k } :=
  ⟨a.natCh4, a.natN2o, a.concIn, a.emis, a.pert, a.years, a.prec, a.keys, a.gas, a.pam, a.just, a.before⟩

/-- What making a table does to the instance. -/
theorem carbonTable_spec {oops : OutputOps F κ} {tops : ThermalOps F τ} {d d' : Driver F κ} {h : Handler F κ}
    {b : Bool} {tab : Option (List (Column F))} (hd : d.source = .handler h)
    (e : carbonTable oops tops d b = .ok (tab, d')) :
    ∃ k, d' = { d with source := .handler { h with carbon := k } } ∧
      (k = h.carbon ∨ ∃ y c l f r, oops.output h.carbon y c l f = .ok r ∧ r.2 = k) := by
  unfold carbonTable at e
  rw [hd] at e
  simp only [bind_eq_ok] at e
  obtain ⟨fbs, -, e⟩ := e
  cases b with
  | false =>
    simp only [Bool.false_eq_true, if_false, pure_ok, Except.ok.injEq, Prod.mk.injEq] at e
    obtain ⟨-, rfl⟩ := e
    exact ⟨h.carbon, by rw [← hd], Or.inl rfl⟩
  | true =>
    simp only [if_true, bind_eq_ok, pure_ok, Except.ok.injEq, Prod.mk.injEq] at e
    obtain ⟨r, hr, -, rfl⟩ := e
    unfold carbonCycleData at hr
    simp only [bind_eq_ok] at hr
    obtain ⟨conc, -, run, -, hr⟩ := hr
    split at hr
    · simp only [bind_eq_ok] at hr
      obtain ⟨q, hq, hr⟩ := hr
      rw [pure_ok, Except.ok.injEq] at hr
      subst hr
      exact ⟨q.2, rfl, Or.inr ⟨_, _, _, _, _, hq, rfl⟩⟩
    · simp only [bind_eq_ok] at hr
      obtain ⟨em, -, q, hq, pre, -, hr⟩ := hr
      rw [pure_ok, Except.ok.injEq] at hr
      subst hr
      exact ⟨q.2, rfl, Or.inr ⟨_, _, _, _, _, hq, rfl⟩⟩

/-- A relation between carbon cycles kept by what happens to them. -/
structure CarbonSim (cops : CarbonOps F κ) (oops : OutputOps F κ) (C : κ → κ → Prop) : Prop where
  reset : ∀ q k k' c c', C k k' → cops.reset k q = .ok c → cops.reset k' q = .ok c' → C c c'
  stepL : ∀ k k' y em fb r, C k k' → cops.step k y em fb = .ok r → C r.2 k'
  stepR : ∀ k k' y em fb r, C k k' → cops.step k' y em fb = .ok r → C k r.2
  ask : ∀ k k' y c l f r, C k k' → oops.output k' y c l f = .ok r → C k r.2

theorem after_snoc {cops : CarbonOps F κ} {tops : ThermalOps F τ} {d0 d1 : Driver F κ} {ps : List (RunPams F)}
    {p : RunPams F} (h : After cops tops d0 (ps ++ [p]) d1) :
    ∃ d t, After cops tops d0 ps d ∧ run cops tops d p = .ok (d1, t) := by
  obtain ⟨qs, hq⟩ : ∃ qs, ps ++ [p] = qs := ⟨_, rfl⟩
  rw [hq] at h
  cases h with
  | fresh => simp at hq
  | next h1 h2 =>
    obtain ⟨rfl, h⟩ := List.append_inj' hq rfl
    cases h
    exact ⟨_, _, h1, h2⟩

theorem after_nil {cops : CarbonOps F κ} {tops : ThermalOps F τ} {d0 d : Driver F κ}
    (h : After cops tops d0 [] d) : d = d0 := by
  obtain ⟨qs, hq⟩ : ∃ qs : List (RunPams F), [] = qs := ⟨_, rfl⟩
  rw [hq] at h
  cases h with
  | fresh => rfl
  | next h1 h2 => simp at hq

theorem asked_sim (law : YearLaw F) {cops : CarbonOps F κ} {oops : OutputOps F κ} {tops : ThermalOps F τ}
    {C : κ → κ → Prop} (hC : CarbonSim cops oops C) {d0 d' : Driver F κ} {h0 : Handler F κ} {ps : List (RunPams F)}
    (hd0 : d0.source = .handler h0) (h0C : C h0.carbon h0.carbon) (ha' : AfterAsked cops oops tops d0 ps d') :
    ∀ d, After cops tops d0 ps d → ∃ h h', d.source = .handler h ∧ d'.source = .handler h' ∧ Kept True h h' ∧
      C h.carbon h'.carbon ∧ d' = { d with source := d'.source, results := d'.results } := by
  induction ha' with
  | fresh =>
    intro d ha
    have := after_nil ha
    subst this
    exact ⟨h0, h0, hd0, hd0, Kept.refl _ _, h0C, rfl⟩
  | @next ps p d' d1' t' _ hr' ih =>
    intro d1 ha
    obtain ⟨d, t, ha, hr⟩ := after_snoc ha
    obtain ⟨h, h', e1, e2, hk, hc, hs⟩ := ih d ha
    obtain ⟨g, g1, r1, r2, s, hkeys, hcar, hsame⟩ := run_handler_spec e1 hr
    obtain ⟨g', g1', r1', r2', s', hkeys', hcar', hsame'⟩ := run_handler_spec e2 hr'
    refine ⟨g1, g1', r2, r2', kept_same_both (kept_both law hk r1 r1') s s' hkeys hkeys', ?_, ?_⟩
    · obtain ⟨_, c, _, hc1, rfl⟩ := reset_spec r1
      obtain ⟨_, c', _, hc1', rfl⟩ := reset_spec r1'
      have h1 := hC.reset _ _ _ _ _ hc hc1 hc1'
      have h2 := hcar (fun k => C k c') (fun k y em fb r hP e => hC.stepL _ _ _ _ _ _ hP e) h1
      exact hcar' (fun k => C g1.carbon k) (fun k y em fb r hP e => hC.stepR _ _ _ _ _ _ hP e) h2
    · rw [hsame', hs, hsame]
  | @asked ps d' d1' b tab _ e ih =>
    intro d ha
    obtain ⟨h, h', e1, e2, hk, hc, hs⟩ := ih d ha
    obtain ⟨k, rfl, hk'⟩ := carbonTable_spec e2 e
    refine ⟨h, { h' with carbon := k }, e1, rfl, kept_carbon hk k, ?_, ?_⟩
    · rcases hk' with rfl | ⟨y, c, l, f, r, hr, rfl⟩
      · exact hc
      · exact hC.ask _ _ _ _ _ _ _ hc hr
    · rw [hs]

/-! ## The two carbon cycles -/

theorem irNewPam_congr {pam pam' new : Dict (PyVal F)} (h : ∀ x, get? pam' x = get? pam x) (x : String) :
    get? (irNewPam pam' new) x = get? (irNewPam pam new) x := by
  rw [irNewPam_get?, irNewPam_get?]
  split
  · rw [h]
  · refine updatePam_congr _ _ _ _ _ ?_ (Or.inr (h x))
    rw [← get?_isSome_iff, ← get?_isSome_iff, h]

theorem irOutput_keeps {k : IR F} {y : List ℤ} {c : Bool} {l : List F} {f : Option (Dict (List F))}
    {r : List (Column F) × IR F} (e : irOutput k y c l f = .ok r) : r.2 = { k with hold := r.2.hold } := by
  unfold irOutput at e
  simp only [bind_eq_ok] at e
  obtain ⟨P, -, dt, -, e⟩ := e
  split at e
  · cases e
  · split at e
    · cases e
    · split at e
      · rw [pure_ok, Except.ok.injEq] at e; subst e; rfl
      · rw [pure_ok, Except.ok.injEq] at e; subst e; rfl

theorem boxOutput_keeps {k : BoxM F} {y : List ℤ} {c : Bool} {l : List F} {f : Option (Dict (List F))}
    {r : List (Column F) × BoxM F} (e : boxOutput k y c l f = .ok r) : r.2 = k := by
  unfold boxOutput at e
  simp only [bind_eq_ok] at e
  obtain ⟨P, -, e⟩ := e
  split at e
  · cases e
  · rw [pure_ok, Except.ok.injEq] at e; subst e; rfl

/-- Same clock, parameters and response arrays. -/
def IRSame (ns : ℤ) (k k' : IR F) : Prop := IRFuns k ∧ k.nystart = ns ∧ IRKept [] k k'

theorem ir_sim (ns : ℤ) : CarbonSim (F := F) irOps irOut (IRSame ns) where
  reset := by
    rintro q k k' c c' ⟨hf, hns, hk⟩ e e'
    obtain ⟨a1, a2, a3, a4, -, a5⟩ := irReset_spec e
    obtain ⟨b1, b2, b3, b4, -, b5⟩ := irReset_spec e'
    have hp : ∀ x, get? c'.pam x = get? c.pam x := by
      intro x
      have hk' : ∀ x, get? k'.pam x = get? k.pam x := fun x => hk.pam x (by simp)
      rcases a5 with ⟨rfl, a5⟩ | ⟨p, new, rfl, hn, a5⟩ <;> rcases b5 with ⟨h, b5⟩ | ⟨p', new', h, hn', b5⟩
      · rw [a5, b5]; exact hk' x
      · cases h
      · cases h
      · cases h
        rw [hn, Except.ok.injEq] at hn'
        subst hn'
        rw [a5, b5]
        exact irNewPam_congr hk' x
    refine ⟨a4 hf, a2.trans hns, ⟨by rw [b1, a1, hk.idtm], by rw [b2, a2, hk.nystart], by rw [b3, a3, hk.years_tot],
      fun x _ => by rw [← get?_isSome_iff, ← get?_isSome_iff, hp], fun x _ => hp x, b4 hk.funs⟩⟩
  stepL := by
    rintro k k' y em fb r ⟨hf, hns, hk⟩ e
    obtain ⟨_, _, _, _, _, hr, _⟩ := irStep_ok e
    rw [hr]
    exact ⟨⟨hf.rs, hf.rb⟩, hns, ⟨hk.idtm, hk.nystart, hk.years_tot, hk.mem, hk.pam, hk.funs⟩⟩
  stepR := fun k k' y em fb r h e => ⟨h.1, h.2.1, ir_step h.2.2 e⟩
  ask := by
    rintro k k' y c l f r ⟨hf, hns, hk⟩ e
    have hr := irOutput_keeps e
    rw [hr]
    exact ⟨hf, hns, ⟨hk.idtm, hk.nystart, hk.years_tot, hk.mem, hk.pam, ⟨hk.funs.rs, hk.funs.rb⟩⟩⟩

theorem box_sim : CarbonSim (F := F) boxOps boxOut (BoxKept []) where
  reset := by
    intro q k k' c c' hk e e'
    simp only [boxOps, boxReset, Except.ok.injEq] at e e'
    subst e e'
    cases q with
    | none => exact ⟨hk.keys, hk.pam⟩
    | some new =>
      refine ⟨?_, ?_⟩
      · simp only [updatePamIfNumeric]
        rw [keys_updatePam_foldl, keys_updatePam_foldl, hk.keys]
      · intro x _
        simp only [updatePamIfNumeric]
        exact updatePam_congr _ _ _ _ _ (by rw [hk.keys]) (Or.inr (hk.pam x (by simp)))
  stepL := fun k k' y em fb r hk e => ⟨by rw [box_step e]; exact hk.keys, by rw [box_step e]; exact hk.pam⟩
  stepR := fun k k' y em fb r hk e => ⟨by rw [box_step e]; exact hk.keys, by rw [box_step e]; exact hk.pam⟩
  ask := fun k k' y c l f r hk e => by have := boxOutput_keeps (r := r) (c := c) e; rw [this]; exact hk

end
end Verif.Props
