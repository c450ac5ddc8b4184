import Verif.Lemmas.Batch
import Verif.Props.C42_C43

/-! # The series an instance held before a run do not matter -/

namespace Verif.Props
open Verif.Py Verif.Py.Dict Verif.Model Verif.Model.Handler Verif.Model.Driver Verif.Spec
  Verif.Model.CarbonInst Verif.Model.CarbonOut Verif.Model.Results Verif.Model.Batch

section
variable {F κ τ : Type}

/-- The same series for the names in `N`. -/
def SameFor (N : List String) (r r' : Dict (List F)) : Prop := ∀ o ∈ N, r'.get? o = r.get? o

theorem setResult_congr {N : List String} {r r' q : Dict (List F)} {o : String} {i : ℕ} {v : F} (h : SameFor N r r')
    (ho : o ∈ N) (e : setResult r o i v = .ok q) : ∃ q', setResult r' o i v = .ok q' ∧ SameFor N q q' := by
  unfold setResult at e ⊢
  rw [bind_eq_ok] at e
  obtain ⟨a, ha, e⟩ := e
  have ha' : r'.getE o = .ok a := by
    unfold Dict.getE at ha ⊢; rw [h o ho]; exact ha
  rw [ha', bind_ok]
  split at e
  · rename_i hi
    rw [if_pos hi]
    rw [pure_ok, Except.ok.injEq] at e
    subst e
    refine ⟨_, rfl, fun x hx => ?_⟩
    rw [get?_set, get?_set, h x hx]
  · cases e

theorem addThermal_congr {N : List String} {values : Dict F} {i : ℕ} : ∀ (outs : List (String × String))
    {r r' q : Dict (List F)}, SameFor N r r' → (∀ p ∈ outs, p.1 ∈ N) → outs.foldlM (addThermal values i) r = .ok q →
    ∃ q', outs.foldlM (addThermal values i) r' = .ok q' ∧ SameFor N q q'
  | [], r, r', q, h, _, e => by
    rw [foldlM_nil_ok] at e
    subst e
    exact ⟨r', rfl, h⟩
  | p :: outs, r, r', q, h, ho, e => by
    obtain ⟨m, h1, h2⟩ := foldlM_cons_ok.1 e
    unfold addThermal at h1
    rw [bind_eq_ok] at h1
    obtain ⟨v, hv, h1⟩ := h1
    obtain ⟨m', e1, hm⟩ := setResult_congr h (ho p List.mem_cons_self) h1
    obtain ⟨q', e2, hq⟩ := addThermal_congr outs hm (fun x hx => ho x (List.mem_cons_of_mem _ hx)) h2
    refine ⟨q', foldlM_cons_ok.2 ⟨m', ?_, e2⟩, hq⟩
    unfold addThermal
    rw [hv, bind_ok]
    exact e1

variable [Add F] [Sub F] [Mul F] [Div F] [Neg F] [OfScientific F] [LT F] [DecidableLT F] [MathFn F]

theorem addYearData_congr {tops : ThermalOps F τ} {d d' : Driver F κ} {r r' q : Dict (List F)} {values : Dict F}
    {forc : F} {index : ℤ} (hd : d'.sun = d.sun ∧ d'.volcN = d.volcN ∧ d'.volcS = d.volcS)
    (h : SameFor (tops.outputs.map Prod.fst ++ forcOutputList) r r')
    (e : addYearData tops d r values forc index = .ok q) :
    ∃ q', addYearData tops d' r' values forc index = .ok q' ∧ SameFor (tops.outputs.map Prod.fst ++ forcOutputList) q q' := by
  unfold addYearData at e ⊢
  simp only [bind_eq_ok] at e ⊢
  obtain ⟨r1, e1, r2, e2, s, hs, r3, e3, vn, hvn, r4, e4, vs, hvs, e5⟩ := e
  obtain ⟨r1', f1, h1⟩ := addThermal_congr _ h (fun p hp => List.mem_append_left _ (List.mem_map_of_mem hp)) e1
  obtain ⟨r2', f2, h2⟩ := setResult_congr h1 (List.mem_append_right _ (by simp [forcOutputList])) e2
  obtain ⟨r3', f3, h3⟩ := setResult_congr h2 (List.mem_append_right _ (by simp [forcOutputList])) e3
  obtain ⟨r4', f4, h4⟩ := setResult_congr h3 (List.mem_append_right _ (by simp [forcOutputList])) e4
  obtain ⟨r5', f5, h5⟩ := setResult_congr h4 (List.mem_append_right _ (by simp [forcOutputList])) e5
  rw [hd.1, hd.2.1, hd.2.2]
  exact ⟨r5', ⟨r1', f1, r2', f2, s, hs, r3', f3, vn, hvn, r4', f4, vs, hvs, f5⟩, h5⟩

theorem yearStep_congr {cops : CarbonOps F κ} {tops : ThermalOps F τ} {d : Driver F κ} {s q : RunState F κ τ} {yr : ℤ}
    {r0 r : Dict (List F)} (h : SameFor (tops.outputs.map Prod.fst ++ forcOutputList) s.results r)
    (e : yearStep cops tops d s yr = .ok q) :
    ∃ r', yearStep cops tops { d with results := r0 } { s with results := r } yr = .ok { q with results := r' } ∧
      SameFor (tops.outputs.map Prod.fst ++ forcOutputList) q.results r' := by
  unfold yearStep at e ⊢
  simp only [bind_eq_ok] at e
  obtain ⟨f, hf, vn, hvn, vs, hvs, b, hb, res, hr, e⟩ := e
  rw [pure_ok, Except.ok.injEq] at e
  subst e
  obtain ⟨r', e', h'⟩ := addYearData_congr (d' := { d with results := r0 }) ⟨rfl, rfl, rfl⟩ h hr
  refine ⟨r', ?_, h'⟩
  have hf' : yearForcing cops { d with results := r0 } s.source s.values yr = .ok f := by
    rw [← hf]; rfl
  simp only [hf', hvn, hvs, hb, e', bind_ok]
  rfl

/-- A run does not depend on the series the instance held before. -/
theorem run_results_congr {cops : CarbonOps F κ} {tops : ThermalOps F τ} {d d1 : Driver F κ} {p : RunPams F} {t : τ}
    (r0 : Dict (List F)) (e : run cops tops d p = .ok (d1, t)) :
    ∃ r1, run cops tops { d with results := r0 } p = .ok ({ d1 with results := r1 }, t) ∧
      SameFor (tops.outputs.map Prod.fst ++ forcOutputList) d1.results r1 := by
  unfold run at e
  simp only [bind_eq_ok] at e
  obtain ⟨s, hs, s', hs', e⟩ := e
  rw [pure_ok, Except.ok.injEq, Prod.mk.injEq] at e
  obtain ⟨rfl, rfl⟩ := e
  have hstart : ∃ r, startRun cops tops { d with results := r0 } p = .ok { s with results := r } ∧
      SameFor (tops.outputs.map Prod.fst ++ forcOutputList) s.results r := by
    unfold startRun at hs ⊢
    simp only [bind_eq_ok] at hs
    obtain ⟨q, hq, th, hth, src, hsrc, hs⟩ := hs
    rw [pure_ok, Except.ok.injEq] at hs
    subst hs
    obtain ⟨hle, h1⟩ := initialise_spec hq
    obtain ⟨q', hq'⟩ : ∃ q', initialiseOutputArrays tops d.nystart d.nyend r0 = .ok q' := by
      unfold initialiseOutputArrays
      rw [if_neg (by omega)]
      exact ⟨_, rfl⟩
    refine ⟨q', ?_, fun o ho => ?_⟩
    · simp only [hq', hth, hsrc, bind_ok]
      rfl
    · rw [h1 o ho, (initialise_spec hq').2 o ho]
  obtain ⟨r, hr, hrr⟩ := hstart
  have hfold : ∀ (ys : List ℤ) (s s' : RunState F κ τ) (r : Dict (List F)),
      SameFor (tops.outputs.map Prod.fst ++ forcOutputList) s.results r →
      ys.foldlM (yearStep cops tops d) s = .ok s' →
      ∃ r', ys.foldlM (yearStep cops tops { d with results := r0 }) { s with results := r } =
        .ok { s' with results := r' } ∧ SameFor (tops.outputs.map Prod.fst ++ forcOutputList) s'.results r' := by
    intro ys
    induction ys with
    | nil =>
      intro s s' r h e
      rw [foldlM_nil_ok] at e
      subst e
      exact ⟨r, rfl, h⟩
    | cons y ys ih =>
      intro s s' r h e
      obtain ⟨m, h1, h2⟩ := foldlM_cons_ok.1 e
      obtain ⟨r1, e1, g1⟩ := yearStep_congr (r0 := r0) h h1
      obtain ⟨r2, e2, g2⟩ := ih _ _ _ g1 h2
      exact ⟨r2, foldlM_cons_ok.2 ⟨_, e1, e2⟩, g2⟩
  obtain ⟨r1, f1, g1⟩ := hfold _ _ _ _ hrr hs'
  refine ⟨r1, ?_, g1⟩
  unfold run
  rw [hr, bind_ok]
  simp only [f1, bind_ok]
  rfl

/-! ## From runs to rows -/

/-- What `HistoryFree` needs of the model. -/
theorem history_free_of {cops : CarbonOps F κ} {oops : OutputOps F κ} {tops : ThermalOps F τ} {vars : List String}
    {scendata : List (Scenario F κ)} {cfgs : List (Cfg F)} {rows : Scenario F κ → Cfg F → List (Batch.Row F)} (hc : cfgs ≠ [])
    (h : ∀ s ∈ scendata, ∃ d0, s.build = .ok d0 ∧ ∃ Reach : Driver F κ → Prop, Reach d0 ∧
      ∀ d c, Reach d → c ∈ cfgs → ∀ d1 t R d2, run cops tops d0 c.pams = .ok (d1, t) →
        runResults oops tops d1 true = .ok (R, d2) →
        ∃ d1' t' R' d2', run cops tops d c.pams = .ok (d1', t') ∧ runResults oops tops d1' true = .ok (R', d2') ∧
          SameAnswers R R' ∧ Reach d2')
    (halone : ∀ s ∈ scendata, ∀ c ∈ cfgs, (∃ w w', wrapperInit s = .ok w ∧
      stepCfg cops oops tops vars w c = .ok (w', rows s c)) ∧ rows s c ≠ []) :
    HistoryFree wrapperInit (stepCfg cops oops tops vars) rows scendata cfgs := by
  obtain ⟨c0, hc0⟩ := List.exists_mem_of_ne_nil _ hc
  refine ⟨fun s hs => ?_, fun s hs => ?_, fun s hs c hc => (halone s hs c hc).2⟩
  · obtain ⟨⟨w, -, hw, -⟩, -⟩ := halone s hs c0 hc0
    exact ⟨w, hw⟩
  · obtain ⟨d0, hb, Reach, hr0, hstep⟩ := h s hs
    obtain ⟨⟨w0, -, hw0, -⟩, -⟩ := halone s hs c0 hc0
    have hw0c : w0.cscm = d0 := by
      unfold wrapperInit at hw0
      simp only [bind_eq_ok] at hw0
      obtain ⟨a, -, b, -, u, -, c, hc, e⟩ := hw0
      rw [pure_ok, Except.ok.injEq] at e
      rw [hb, Except.ok.injEq] at hc
      subst e hc
      rfl
    refine ⟨fun st => ∃ d, Reach d ∧ st = { w0 with cscm := d }, ?_, ?_⟩
    · intro st hst
      rw [hw0, Except.ok.injEq] at hst
      subst hst
      exact ⟨d0, hr0, by rw [← hw0c]⟩
    · rintro st c ⟨d, hd, rfl⟩ hcm
      obtain ⟨⟨w, w', hw, hst⟩, -⟩ := halone s hs c hcm
      rw [hw0, Except.ok.injEq] at hw
      subst hw
      unfold stepCfg at hst
      simp only [bind_eq_ok] at hst
      obtain ⟨⟨d1, t⟩, hrun, ⟨R, d2⟩, hR, rs, hrs, e⟩ := hst
      rw [hw0c] at hrun
      obtain ⟨d1', t', R', d2', hrun', hR', hsame, hreach⟩ := hstep d c hd hcm _ _ _ _ hrun hR
      refine ⟨{ w0 with cscm := d2' }, ?_, d2', hreach, rfl⟩
      have hrs' : vars.mapM (Batch.rowOf { w0 with cscm := d } c.index R') = .ok rs := by
        rw [← hrs]
        apply mapM_congr_left
        intro v _
        unfold Batch.rowOf
        rw [getVariable_congr hsame]
      unfold stepCfg
      simp only [hrun', hR', hrs', bind_ok]
      rw [pure_ok, Except.ok.injEq, Prod.mk.injEq] at e
      rw [pure_ok, e.2]

end
end Verif.Props
