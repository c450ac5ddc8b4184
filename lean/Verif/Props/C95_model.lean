import Verif.Props.C95
import Verif.Props.C47
import Verif.Props.C85
import Verif.Lemmas.BuildLong
import Verif.Exec.OptionRun

/-!
# C95 — the length of a run does not change its years: whole configurations

Two model objects built from a configuration and from the same configuration with a later last year.
-/

namespace Verif.Props
open Verif.Py Verif.Py.Dict Verif.Model Verif.Model.Handler Verif.Model.Driver Verif.Model.InputHandler
  Verif.Model.CarbonInst Verif.Spec Verif.Spec.Inputs

section
variable {F κ τ : Type} [Add F] [Sub F] [Mul F] [Div F] [Neg F] [OfScientific F] [LT F] [DecidableLT F] [MathFn F]

theorem build_years {cops : CarbonOps F κ} {tops : ThermalOps F τ} {fs : Files F} {c : Dict (CfgVal F)} {d : Driver F κ}
    (h : build cops tops fs c = .ok d) :
    pamI (Factory.driverCfg (plain c)) "nystart" = .ok d.nystart ∧ pamI (Factory.driverCfg (plain c)) "nyend" = .ok d.nyend ∧
      d.feedbackList = some ["dtemp"] := by
  unfold build at h
  simp only [bind_eq_ok] at h
  obtain ⟨ih, h1, ns, h2, ne, h3, src, h4, x1, g1, vn, a1, x2, g2, vs, a2, x3, g3, rs, a3, sun, f3, x4, g4, rl, a4, luc, f4,
    res, h5, h6⟩ := h
  rw [pure_ok, Except.ok.injEq] at h6
  subst h6
  exact ⟨h2, h3, rfl⟩

theorem WF_withEnd {c : Dict (CfgVal F)} (hc : WF c) (last : ℤ) : WF (withEnd c last) := WF_set _ _ _ hc

theorem get?_withEnd (c : Dict (CfgVal F)) (last : ℤ) {k : String} (hk : k ≠ "nyend") :
    get? (withEnd c last) k = get? c k := by
  unfold withEnd
  rw [get?_set, if_neg (fun e => hk e.symm)]

theorem driverCfg_withEnd {c : Dict (CfgVal F)} (hc : WF c) (last : ℤ) :
    SameButEnd (Factory.driverCfg (plain c)) (Factory.driverCfg (plain (withEnd c last))) := by
  intro k hk
  rw [get?_driverCfg (WF_plain (WF_withEnd hc last)), get?_driverCfg (WF_plain hc), get?_plain, get?_plain,
    get?_withEnd c last hk]

theorem driverCfg_end {c : Dict (CfgVal F)} (hc : WF c) (last : ℤ) :
    get? (Factory.driverCfg (plain (withEnd c last))) "nyend" = some (.int last) := by
  rw [get?_driverCfg (WF_plain (WF_withEnd hc last)), get?_plain]
  unfold withEnd
  rw [get?_set, if_pos rfl]
  rfl

theorem driverCfg_emstart {c : Dict (CfgVal F)} (hc : WF c) {es : ℤ} (h : EmissionStart c es) :
    pamI (Factory.driverCfg (plain c)) "emstart" = .ok es := by
  unfold pamI Dict.getE
  rw [get?_driverCfg (WF_plain hc), get?_plain]
  rcases h with h | ⟨h, rfl⟩
  · rw [h]; rfl
  · rw [h]; rfl

/-- The parameter set handed to the handler of the gases has the years of the configuration. -/
theorem emiconc_get {s p : Dict (PyVal F)} (h : Factory.driverEmiconc s = .ok p) {k : String} :
    (k ∈ ["nystart", "nyend", "emstart", "idtm"] → get? p k = get? s k) ∧
    (k = "carbon_cycle_model" → get? p k = some (Factory.carbonName s)) ∧
    (k ∉ ["carbon_cycle_model", "nystart", "nyend", "emstart", "idtm"] → get? p k = none) := by
  have hg : ∀ {x : String} {v : PyVal F}, Dict.getE s x = .ok v → get? s x = some v := by
    intro x v hv
    unfold Dict.getE at hv
    split at hv
    · rename_i w hw
      rw [Except.ok.injEq] at hv
      rw [hw, hv]
    · cases hv
  unfold Factory.driverEmiconc at h
  simp only [bind_eq_ok] at h
  obtain ⟨v1, h1, v2, h2, v3, h3, v4, h4, h⟩ := h
  rw [pure_ok, Except.ok.injEq] at h
  subst h
  refine ⟨?_, ?_, ?_⟩
  · intro hk
    simp only [List.mem_cons, List.not_mem_nil, or_false] at hk
    rcases hk with rfl | rfl | rfl | rfl
    · rw [hg h2]; rfl
    · rw [hg h3]; rfl
    · rw [hg h1]; rfl
    · rw [hg h4]; rfl
  · rintro rfl; rfl
  · intro hk
    simp only [List.mem_cons, List.not_mem_nil, or_false, not_or] at hk
    rw [get?_set, get?_set, get?_set, get?_set, get?_cons, get?_nil, if_neg (Ne.symm hk.2.2.2.2), if_neg (Ne.symm hk.2.2.1),
      if_neg (Ne.symm hk.2.1), if_neg (Ne.symm hk.2.2.2.1), if_neg (Ne.symm hk.1)]

theorem emiconc_same {s s' p p' : Dict (PyVal F)} (hs : SameButEnd s s') (h : Factory.driverEmiconc s = .ok p)
    (h' : Factory.driverEmiconc s' = .ok p') : SameButEnd p p' := by
  intro k hk
  by_cases h1 : k ∈ ["nystart", "nyend", "emstart", "idtm"]
  · rw [(emiconc_get h').1 h1, (emiconc_get h).1 h1, hs k hk]
  · by_cases h2 : k = "carbon_cycle_model"
    · rw [(emiconc_get h').2.1 h2, (emiconc_get h).2.1 h2]
      unfold Factory.carbonName
      rw [hs _ (by decide)]
    · have h3 : k ∉ ["carbon_cycle_model", "nystart", "nyend", "emstart", "idtm"] := by
        simp only [List.mem_cons, List.not_mem_nil, or_false, not_or] at h1 ⊢
        exact ⟨h2, h1⟩
      rw [(emiconc_get h').2.2 h3, (emiconc_get h).2.2 h3]

theorem checkPamset_year {c : Dict (PyVal F)} {p : Dict (PyVal F)} (h : Factory.driverEmiconc (Factory.driverCfg c) = .ok p)
    (b : Bool) {k : String} (hk : k ∈ ["nystart", "nyend", "emstart"]) {y : ℤ}
    (hy : pamI (Factory.driverCfg c) k = .ok y) :
    pamI (Dict.set (Factory.checkPamset (some p)) "conc_run" (.bool b)) k = .ok y := by
  have hk4 : k ∈ ["nystart", "nyend", "emstart", "idtm"] := by clear * - hk; revert k; decide
  have e : get? (Dict.set (Factory.checkPamset (some p)) "conc_run" (.bool b)) k = get? (Factory.driverCfg c) k := by
    obtain ⟨v, hv, hn⟩ := driverCfg_num c hk4
    have hp := (emiconc_get h (k := k)).1 hk4
    rw [get?_set, if_neg (by clear * - hk; revert k; decide), hv]
    have hw : WF p := by unfold WF; rw [emiconc_keys h]; decide
    have key : ∀ (q : Dict (PyVal F)) (a : String) (v : PyVal F), WF q → a ≠ k →
        WF (if q.has a then q else q.set a v) ∧ get? (if q.has a then q else q.set a v) k = get? q k := by
      intro q a v w ha
      split
      · exact ⟨w, rfl⟩
      · exact ⟨WF_set _ _ _ w, by rw [get?_set, if_neg ha]⟩
    obtain ⟨a1, a2⟩ := key p "lifetime_mode" (.str "TAR") hw (by clear * - hk; revert k; decide)
    obtain ⟨b1, b2⟩ := key _ "carbon_cycle_model" (.str "default") a1 (by clear * - hk; revert k; decide)
    unfold Factory.checkPamset
    simp only [Option.getD_some]
    rw [C01_value _ _ _ WF_handlerRequired b1, b2, a2, hp, hv]
    have : ∃ m : PyVal F, get? (Factory.handlerRequired (F := F)) k = some m := by
      rw [get?_isSome_iff]
      have e2 : Dict.keys (Factory.handlerRequired (F := F)) = ["qbmb", "qo3", "qdirso2", "qindso2", "qbc", "qoc", "qh2o_ch4",
        "ref_yr", "qnmvoc", "qnh3", "qnox", "idtm", "nystart", "nyend", "emstart"] := rfl
      rw [e2]
      clear * - hk; revert k; decide
    obtain ⟨m, hm⟩ := this
    rw [hm]
    unfold sanitisedValue
    simp only [hn, if_true]
  unfold pamI Dict.getE at hy ⊢
  rw [e]
  exact hy

/-- The table of concentrations or emissions that two configurations read. -/
theorem table_long {fs : Files F} {u u' : Dict (CfgVal F)} {ih ih' : InputHandler.Handler F} (w : WF u) (w' : WF u')
    (e : create fs u = .ok ih) (e' : create fs u' = .ok ih') {what : String} (hw : what ∈ ["concentrations", "emissions"])
    (same : ∀ k ∈ [what ++ "_file", what ++ "_data"], get? u' k = get? u k)
    (hs : ih'.nystart = ih.nystart) (hle : ih.nystart ≤ ih.nyend) (hle' : ih.nyend ≤ ih'.nyend)
    (hcov : TableCovers fs u what ih.nystart ih'.nyend) {E : String → ℤ → Prop}
    (hcut : NoFile u what ∨ ∀ c z, E c z → z ≤ ih.nyend) {t t' : Frame F}
    (ht : getData fs ih what = .ok (.table t)) (ht' : getData fs ih' what = .ok (.table t')) :
    FrameUpTo E t t' ∧ (∃ i j, t.idx = pyRange i j ∧ i ≤ ih.nystart ∧ ih.nyend < j) ∧
      ∃ i j, t'.idx = pyRange i j ∧ i ≤ ih.nystart ∧ ih'.nyend < j := by
  have hin : what ∈ inputs := by clear * - hw; revert what; decide +kernel
  have hnat : what ∉ ["nat_ch4", "nat_n2o"] := by clear * - hw; revert what; decide +kernel
  have hsv : what ∉ solarVolcanic := by clear * - hw; revert what; decide +kernel
  obtain ⟨t0, i, j, hsrc, hidx, hi, hj⟩ := hcov
  rcases hsrc with ⟨p, hf, htab⟩ | ⟨hnf, hd⟩
  · have hp : fs.present p = true := by
      by_contra hp
      rw [Bool.not_eq_true] at hp
      exact C47_missing_file w hin hnat hf hp ih e
    have hf' : FileIs u' what p := (same _ (by simp)).trans hf
    have hE : ∀ c z, E c z → z ≤ ih.nyend := by
      rcases hcut with hcut | hcut
      · unfold NoFile at hcut
        unfold FileIs at hf
        rw [hcut] at hf
        cases hf
      · exact hcut
    rw [C47_file_wins w e hin hf hp] at ht
    rw [C47_file_wins w' e' hin hf' hp] at ht'
    simp only [List.mem_cons, List.not_mem_nil, or_false] at hw
    rcases hw with rfl | rfl
    · change (do return Data.table (← cutYears (← fs.table p) ih.nystart ih.nyend)) = _ at ht
      change (do return Data.table (← cutYears (← fs.table p) ih'.nystart ih'.nyend)) = _ at ht'
      rw [htab] at ht ht'
      simp only [bind_ok, bind_eq_ok, pure_ok, Except.ok.injEq, Data.table.injEq] at ht ht'
      obtain ⟨x, hx, rfl⟩ := ht
      obtain ⟨x', hx', rfl⟩ := ht'
      rw [hs] at hx'
      obtain ⟨k1, k2, k3⟩ := cutYears_long hidx hi hj hle hle' hx hx' hE
      exact ⟨k1, ⟨_, _, k2, le_refl _, by omega⟩, ⟨_, _, k3, le_refl _, by omega⟩⟩
    · change (do return Data.table (← readEmissions (← fs.table p) ih.nystart ih.nyend)) = _ at ht
      change (do return Data.table (← readEmissions (← fs.table p) ih'.nystart ih'.nyend)) = _ at ht'
      rw [htab] at ht ht'
      simp only [readEmissions, bind_ok, bind_eq_ok, pure_ok, Except.ok.injEq, Data.table.injEq] at ht ht'
      obtain ⟨_, ⟨x, hx, rfl⟩, rfl⟩ := ht
      obtain ⟨_, ⟨x', hx', rfl⟩, rfl⟩ := ht'
      rw [hs] at hx'
      obtain ⟨k1, k2, k3⟩ := cutYears_long (E := fun _ z => z ≤ ih.nyend) hidx hi hj hle hle' hx hx' (fun _ _ h => h)
      refine ⟨⟨?_, ?_, ?_⟩, ⟨_, _, k2, le_refl _, by omega⟩, ⟨_, _, k3, le_refl _, by omega⟩⟩
      · simp only; rw [k1.cols]
      · intro c z hz
        exact k1.idx c z (hE c z hz)
      · intro c hc z hz hez
        have hx1 : x.cell = t0.cell := by
          unfold cutYears at hx
          split at hx
          · simp only at hx
            split at hx
            · rw [Except.ok.injEq] at hx
              subst hx
              rfl
            · cases hx
          · cases hx
        have hx2 : x'.cell = t0.cell := by
          unfold cutYears at hx'
          split at hx'
          · simp only at hx'
            split at hx'
            · rw [Except.ok.injEq] at hx'
              subst hx'
              rfl
            · cases hx'
          · cases hx'
        simp only
        rw [hx1, hx2]
  · have hnf' : NoFile u' what := (same _ (by simp)).trans hnf
    have hd' : DataIs u' what (.table t0) := (same _ (by simp)).trans hd
    rw [C47_data_used w e hin hnf hd (Or.inr hsv), Except.ok.injEq, Data.table.injEq] at ht
    rw [C47_data_used w' e' hin hnf' hd' (Or.inr hsv), Except.ok.injEq, Data.table.injEq] at ht'
    subst ht ht'
    exact ⟨⟨rfl, fun _ _ _ => Iff.rfl, fun _ _ _ _ _ => rfl⟩, ⟨i, j, hidx, hi, by omega⟩, ⟨i, j, hidx, hi, hj⟩⟩

/-- The two model objects: years, series, and the input handlers they were made with. -/
theorem built_long {cops : CarbonOps F κ} {tops : ThermalOps F τ} {fs : Files F} {c : Dict (CfgVal F)} {last : ℤ}
    {d d' : Driver F κ} (hc : WF c) (h : build cops tops fs c = .ok d) (h' : build cops tops fs (withEnd c last) = .ok d')
    (hlast : d.nyend ≤ last) : ∃ (B : Built cops fs c d) (B' : Built cops fs (withEnd c last) d'),
      Long B.ih B'.ih ∧ SeriesLonger d.nyend d d' ∧ d'.nyend = last := by
  obtain ⟨B⟩ := built hc h
  obtain ⟨B'⟩ := built (WF_withEnd hc last) h'
  obtain ⟨y1, y2, y3⟩ := build_years h
  obtain ⟨z1, z2, z3⟩ := build_years h'
  have hs := driverCfg_withEnd hc last
  have hend : d'.nyend = last := by
    unfold pamI Dict.getE at z2
    rw [driverCfg_end hc last] at z2
    simpa [bind_ok, PyVal.toI] using z2.symm
  have hstart : d'.nystart = d.nystart := by
    unfold pamI Dict.getE at y1 z1
    rw [hs _ (by decide), y1, Except.ok.injEq] at z1
    exact z1.symm
  have hL : Long B.ih B'.ih := by
    refine create_long B.wf B'.wf ?_ ?_ B.create B'.create
    · intro k hk
      have hd : k ∉ driverKeys := hk
      rw [B'.same k hd, B.same k hd, get?_withEnd c last (by rintro rfl; exact hd (by decide))]
    · rw [← B'.start, ← B.start, hstart]
  refine ⟨B, B', hL, ?_, hend⟩
  have hle : B.ih.nyend ≤ B'.ih.nyend := by rw [← B.stop, ← B'.stop, hend]; exact hlast
  have col : ∀ {r r' : List (List F)} {x x' : List F}, RowsUpTo d.nystart d.nyend r r' → firstColumn r = .ok x →
      firstColumn r' = .ok x' → RowsUpTo d.nystart d.nyend x x' := by
    intro r r' x x' hr e e'
    have key : ∀ {l : List (List F)} {m : List F}, firstColumn l = .ok m → ∀ n : ℕ, m[n]? = (l[n]?).bind List.head? := by
      intro l
      unfold firstColumn
      induction l with
      | nil =>
        intro m hm n
        rw [List.mapM_nil, pure_ok, Except.ok.injEq] at hm
        subst hm
        simp
      | cons a l ih =>
        intro m hm n
        rw [List.mapM_cons] at hm
        simp only [bind_eq_ok, pure_ok, Except.ok.injEq] at hm
        obtain ⟨v, hv, vs, hvs, rfl⟩ := hm
        cases n with
        | zero =>
          cases a with
          | nil => cases hv
          | cons q a =>
            simp only [Except.ok.injEq] at hv
            subst hv
            rfl
        | succ n =>
          rw [List.getElem?_cons_succ, List.getElem?_cons_succ]
          exact ih hvs n
    intro n hn
    rw [key e, key e', hr n hn]
  obtain ⟨s, gs, fs1⟩ := B.sun
  obtain ⟨s', gs', fs1'⟩ := B'.sun
  obtain ⟨l, gl, fl⟩ := B.luc
  obtain ⟨l', gl', fl'⟩ := B'.luc
  have b1 := B.start
  have b2 := B.stop
  refine ⟨hstart, by omega, by rw [y3, z3], ?_, ?_, ?_, ?_⟩
  · refine col ?_ fs1 fs1'
    rw [b1, b2]
    exact hL.rows hle (by simp) gs gs'
  · refine col ?_ fl fl'
    rw [b1, b2]
    exact hL.rows hle (by simp) gl gl'
  · rw [b1, b2]
    exact hL.rows hle (by simp) B.volcN B'.volcN
  · rw [b1, b2]
    exact hL.rows hle (by simp) B.volcS B'.volcS

/-- C95 for configurations with prescribed forcing: the model built from the configuration and the one built with a later last
year have the same result series in every year of the shorter run. -/
theorem C95_model_forcing {cops : CarbonOps F κ} {tops : ThermalOps F τ} {fs : Files F} {c : Dict (CfgVal F)} {last : ℤ}
    {d d' d1 d1' : Driver F κ} {p : RunPams F} {t t' : τ}
    (hnd : (tops.outputs.map Prod.fst ++ forcOutputList).Nodup) (hc : WF c)
    (h : build cops tops fs c = .ok d) (h' : build cops tops fs (withEnd c last) = .ok d') (hlast : d.nyend ≤ last)
    {rf : Forcing F} (hd : d.source = .forcing rf)
    (hr : run cops tops d p = .ok (d1, t)) (hr' : run cops tops d' p = .ok (d1', t')) :
    ∀ z, d.nystart ≤ z → z ≤ d.nyend → ∀ o ∈ tops.outputs.map Prod.fst ++ forcOutputList,
      entry d1'.results o (z - d.nystart).toNat = entry d1.results o (z - d.nystart).toNat := by
  obtain ⟨B, B', hL, hS, hend⟩ := built_long hc h h' hlast
  have hd' : d'.source = .forcing rf := by
    have e := B.source
    have e' := B'.source
    unfold buildSource at e e'
    rw [hL.optional (what := "forc") (by decide) (by decide), hL.getData (by simp)] at e'
    by_cases ho : optionalPam B.ih "forc" = true
    · rw [if_pos ho] at e e'
      simp only [bind_eq_ok, pure_ok, Except.ok.injEq] at e e'
      obtain ⟨x, h1, f, h2, e⟩ := e
      obtain ⟨x', h1', f', h2', e'⟩ := e'
      rw [h1, Except.ok.injEq] at h1'
      subst h1'
      rw [h2, Except.ok.injEq] at h2'
      subst h2'
      rw [← e', e, hd]
    · rw [if_neg ho] at e
      simp only [bind_eq_ok, pure_ok, Except.ok.injEq] at e
      obtain ⟨x, h1, i, h2, g, h3, e⟩ := e
      rw [hd] at e
      cases e
  refine C95_forcing_run hnd hS hd hd' ?_ rfl hr hr'
  cases rf with
  | array xs => exact fun _ _ => rfl
  | frame t => exact ⟨rfl, fun _ _ _ => Iff.rfl, fun _ _ _ _ _ => rfl⟩

/-- C95 for configurations with gases: the model built from the configuration and the one built with a later last year, run with
the same parameters, have the same result series, reported concentrations and reported forcings in every year of the shorter run.
Partial: not if the emission period begins in the last year of the shorter run; tables read from files must reach the reference
years 2000 and `ref_yr` in the shorter run, since they are cut to the run years. -/
theorem C95_model_partial {cops : CarbonOps F κ} {tops : ThermalOps F τ} {fs : Files F} {c : Dict (CfgVal F)} {last : ℤ}
    {d d' d1 d1' : Driver F κ} {p : RunPams F} {t t' : τ} {ref es : ℤ} {gt : Dict (Gas F × String)} {g : Handler.Handler F κ}
    (hb : EndBlind cops) (hnd : (tops.outputs.map Prod.fst ++ forcOutputList).Nodup) (hc : WF c)
    (h : build cops tops fs c = .ok d) (h' : build cops tops fs (withEnd c last) = .ok d')
    (hd : d.source = .handler g) (hne : d.nystart ≤ d.nyend) (hlast : d.nyend ≤ last)
    (hes : EmissionStart c es) (hse : d.nystart < es)
    (hreg : get? c "conc_run" = some (.val (.bool true)) ∨ es < d.nyend ∨ last ≤ es)
    (hgt : GasTable fs c gt) (hgn : gt.keys.Nodup)
    (hcon : TableCovers fs c "concentrations" d.nystart last) (hem : TableCovers fs c "emissions" d.nystart last)
    (hcut : ∀ what ∈ ["concentrations", "emissions"], NoFile c what ∨ 2000 ≤ d.nyend ∧ ref ≤ d.nyend)
    (href : pamI (Factory.checkPamset p.emiconc) "ref_yr" = .ok ref)
    (hr : run cops tops d p = .ok (d1, t)) (hr' : run cops tops d' p = .ok (d1', t')) :
    SameResults tops d.nystart d.nyend d1 d1' := by
  obtain ⟨B, B', hL, hS, hend⟩ := built_long hc h h' hlast
  have hle : B.ih.nyend ≤ B'.ih.nyend := by rw [← B.stop, ← B'.stop, hend]; exact hlast
  have e := B.source
  have e' := B'.source
  unfold buildSource at e e'
  rw [hL.optional (what := "forc") (by decide) (by decide)] at e'
  by_cases ho : optionalPam B.ih "forc" = true
  · rw [if_pos ho] at e
    simp only [bind_eq_ok, pure_ok, Except.ok.injEq] at e
    obtain ⟨x, h1, f, h2, e⟩ := e
    rw [hd] at e
    cases e
  rw [if_neg ho] at e e'
  simp only [bind_eq_ok, pure_ok, Except.ok.injEq] at e e'
  obtain ⟨q, q1, i, i1, g1, c1, e⟩ := e
  obtain ⟨q', q1', i', i1', g1', c1', e'⟩ := e'
  rw [construct_copy cops q1] at c1
  rw [construct_copy cops q1'] at c1'
  obtain ⟨y1, y2, -⟩ := build_years h
  obtain ⟨z1, z2, -⟩ := build_years h'
  unfold getInputs at i1 i1'
  simp only [bind_eq_ok, pure_ok, Except.ok.injEq] at i1 i1'
  obtain ⟨x1, gx1, gas, gas1, x2, gx2, nc, nc1, x3, gx3, nn, nn1, x4, gx4, cn, cn1, x5, gx5, em, em1, pe, pe1, pf, pf1, i1⟩ := i1
  obtain ⟨x1', gx1', gas', gas1', x2', gx2', nc', nc1', x3', gx3', nn', nn1', x4', gx4', cn', cn1', x5', gx5', em', em1', pe',
    pe1', pf', pf1', i1'⟩ := i1'
  have fr : ∀ {x : Data F} {t : Frame F}, asFrame x = .ok t → x = .table t := by
    intro x t hx
    unfold asFrame at hx
    split at hx
    · rw [Except.ok.injEq] at hx; rw [hx]
    · cases hx
  have n1 := fr nc1; have n2 := fr nn1; have n3 := fr cn1; have n4 := fr em1
  have n1' := fr nc1'; have n2' := fr nn1'; have n3' := fr cn1'; have n4' := fr em1'
  subst n1 n2 n3 n4 n1' n2' n3' n4'
  have hgx : gas' = gas := by
    rw [hL.getData (by simp), gx1, Except.ok.injEq] at gx1'
    subst gx1'
    rw [gas1, Except.ok.injEq] at gas1'
    exact gas1'.symm
  have hpe : pe' = pe := by
    unfold getPert at pe1 pe1'
    rw [hL.optional (what := "perturb_em") (by decide) (by decide), hL.getData (by simp)] at pe1'
    rw [pe1, Except.ok.injEq] at pe1'
    exact pe1'.symm
  have hpf : pf' = pf := by
    unfold getPert at pf1 pf1'
    rw [hL.optional (what := "perturb_forc") (by decide) (by decide), hL.getData (by simp)] at pf1'
    rw [pf1, Except.ok.injEq] at pf1'
    exact pf1'.symm
  have hcr : concRun B'.ih = concRun B.ih := by
    unfold concRun
    rw [hL.other _ (by decide) (by decide)]
  have usame : ∀ k, k ∉ driverKeys → get? B.cfg k = get? c k := B.same
  have usame' : ∀ k, k ∉ driverKeys → get? B'.cfg k = get? c k := by
    intro k hk
    rw [B'.same k hk, get?_withEnd c last (by rintro rfl; exact hk (by decide))]
  have cov : ∀ what ∈ ["concentrations", "emissions"], TableCovers fs c what d.nystart last →
      TableCovers fs B.cfg what B.ih.nystart B'.ih.nyend := by
    rintro what hw ⟨t, a, b, hsrc, hrest⟩
    have k1 : what ++ "_file" ∉ driverKeys ∧ what ++ "_data" ∉ driverKeys := by
      clear * - hw; revert what; decide +kernel
    refine ⟨t, a, b, ?_, ?_⟩
    · rcases hsrc with ⟨p, hf, ht⟩ | ⟨hf, ht⟩
      · exact Or.inl ⟨p, (usame _ k1.1).trans hf, ht⟩
      · exact Or.inr ⟨(usame _ k1.1).trans hf, (usame _ k1.2).trans ht⟩
    · rw [← B.start, ← B'.stop, hend]
      exact hrest
  have tab : ∀ what ∈ ["concentrations", "emissions"], TableCovers fs c what d.nystart last →
      ∀ (E : String → ℤ → Prop), (2000 ≤ d.nyend ∧ ref ≤ d.nyend → ∀ c z, E c z → z ≤ d.nyend) →
      ∀ t t' : Frame F, getData fs B.ih what = .ok (.table t) → getData fs B'.ih what = .ok (.table t') →
      FrameUpTo E t t' ∧ (∃ i j, t.idx = pyRange i j ∧ i ≤ d.nystart ∧ d.nyend < j) ∧
        ∃ i j, t'.idx = pyRange i j ∧ i ≤ d.nystart ∧ last < j := by
    intro what hw hcov E hE t t' ht ht'
    have k1 : what ++ "_file" ∉ driverKeys ∧ what ++ "_data" ∉ driverKeys := by
      clear * - hw; revert what; decide +kernel
    have := table_long B.wf B'.wf B.create B'.create hw
      (by
        intro k hk
        simp only [List.mem_cons, List.not_mem_nil, or_false] at hk
        rcases hk with rfl | rfl
        · rw [usame _ k1.1, usame' _ k1.1]
        · rw [usame _ k1.2, usame' _ k1.2])
      hL.start (by rw [← B.start, ← B.stop]; exact hne) hle (cov what hw hcov) (E := E)
      (by
        rcases hcut what hw with hh | hh
        · exact Or.inl ((usame _ k1.1).trans hh)
        · rw [← B.stop]; exact Or.inr (hE hh)) ht ht'
    rw [← B.start, ← B.stop, ← B'.stop, hend] at this
    exact this
  obtain ⟨fc, tc, tc'⟩ := tab "concentrations" (by simp) hcon (ConcCell d.nyend ref)
    (fun hh _ z hz => by rcases hz with hz | ⟨-, hz⟩ <;> omega) _ _ gx4 gx4'
  obtain ⟨fe, te, te'⟩ := tab "emissions" (by simp) hem (EmisCell d.nyend ref)
    (fun hh _ z hz => by rcases hz with hz | ⟨-, hz | hz⟩ <;> omega) _ _ gx5 gx5'
  have fn1 := hL.natural hle (by simp) gx2 gx2'
  have fn2 := hL.natural hle (by simp) gx3 gx3'
  rw [← B.stop] at fn1 fn2
  have hgn' : i.gas.keys.Nodup := by
    have hg : x1 = .gases gt := by
      have k1 : "gaspam_file" ∉ driverKeys ∧ "gaspam_data" ∉ driverKeys := by decide
      rcases hgt with ⟨p, hf, ht⟩ | ⟨hf, ht⟩
      · have hf' : FileIs B.cfg "gaspam" p := (usame _ k1.1).trans hf
        have hp : fs.present p = true := by
          by_contra hp
          rw [Bool.not_eq_true] at hp
          exact C47_missing_file B.wf (by decide) (by decide) hf' hp B.ih B.create
        rw [C47_file_wins B.wf B.create (by decide) hf' hp] at gx1
        change (do return Data.gases (← fs.gaspam p)) = _ at gx1
        rw [ht, bind_ok, pure_ok, Except.ok.injEq] at gx1
        exact gx1.symm
      · rw [C47_data_used (what := "gaspam") B.wf B.create (by decide) ((usame _ k1.1).trans hf) ((usame _ k1.2).trans ht)
          (Or.inr (by decide)), Except.ok.injEq] at gx1
        exact gx1.symm
    subst hg
    simp only [asGases, Except.ok.injEq] at gas1
    subst i1 gas1
    simp only [Dict.keys, List.map_map]
    exact hgn
  have hconc : concRun B.ih = true ∨ es < d.nyend ∨ last ≤ es := by
    rcases hreg with hh | hh
    · left
      rw [concRun, conc_run_stored B, hh]
      rfl
    · exact Or.inr hh
  have es1 := driverCfg_emstart hc hes
  have es1' : pamI (Factory.driverCfg (plain (withEnd c last))) "emstart" = .ok es := by
    unfold pamI Dict.getE at es1 ⊢
    rw [driverCfg_withEnd hc last _ (by decide)]
    exact es1
  have wq : WF q := by unfold WF; rw [emiconc_keys q1]; decide
  have wq' : WF q' := by unfold WF; rw [emiconc_keys q1']; decide
  rw [hS.nystart] at z1
  rw [hend] at z2
  subst i1 i1'
  refine C95_emission_run_partial hb hnd hgn' ?_ hS (checkPamset_sameButEnd wq wq' (emiconc_same (driverCfg_withEnd hc last) q1 q1'))
    (es := es) (ref := ref) ?_ c1 c1' e.symm e'.symm ?_ ?_ href hr hr'
  · exact ⟨hgx, hcr, fn1, fn2, fc, fe, fun _ _ => by simp only [hpe], fun _ _ _ _ => by simp only [hpe],
      fun _ _ => by simp only [hpf]⟩
  · rw [hend]; exact hconc
  · refine ⟨checkPamset_year q1 _ (by simp) y1, checkPamset_year q1 _ (by simp) y2, checkPamset_year q1 _ (by simp) es1, tc, ?_,
      hne, fun _ => hse⟩
    obtain ⟨a, b, t1, t2, t3⟩ := te
    exact ⟨a, b, t1, by omega, t3⟩
  · rw [hend]
    refine ⟨checkPamset_year q1' _ (by simp) z1, checkPamset_year q1' _ (by simp) z2, checkPamset_year q1' _ (by simp) es1', tc', ?_,
      by omega, fun _ => hse⟩
    obtain ⟨a, b, t1, t2, t3⟩ := te'
    exact ⟨a, b, t1, by omega, t3⟩

end

/-! ## Cases -/

open Verif.Exec Verif.Model.ThermalInst

/-- A configuration with files, for the years 2000 to 2003, with emissions from 2001. -/
def lengthCfg : Dict (CfgVal ℚ) :=
  [("nystart", .val (.int 2000)), ("nyend", .val (.int 2003)), ("emstart", .val (.int 2001)), ("gaspam_file", str "1"),
   ("emissions_file", str "1"), ("concentrations_file", str "1"), ("sunvolc", .val (.int 1))]

/-- Two configurations with files, one to 2003 and one to 2006: both models are built and run, with a temperature change that is
not zero. -/
theorem length_models :
    (match build toyCarbon twoLayerOps optionFiles lengthCfg, build toyCarbon twoLayerOps optionFiles (withEnd lengthCfg 2006) with
     | .ok d, .ok d' =>
       (match run toyCarbon twoLayerOps d ⟨none, some [("ref_yr", .int 2002)], none⟩,
          run toyCarbon twoLayerOps d' ⟨none, some [("ref_yr", .int 2002)], none⟩ with
        | .ok r, .ok _ => decide (d.nystart = 2000 ∧ d.nyend = 2003 ∧ entry r.1.results "dT_glob" 3 ≠ some 0)
        | _, _ => false)
     | _, _ => false) = true := by decide +kernel

/-- Every hypothesis of `C95_model_partial` is met by this pair. -/
example : ∃ d d' d1 d1' t t', build toyCarbon twoLayerOps optionFiles lengthCfg = .ok d ∧
    build toyCarbon twoLayerOps optionFiles (withEnd lengthCfg 2006) = .ok d' ∧
    run toyCarbon twoLayerOps d ⟨none, some [("ref_yr", .int 2002)], none⟩ = .ok (d1, t) ∧
    run toyCarbon twoLayerOps d' ⟨none, some [("ref_yr", .int 2002)], none⟩ = .ok (d1', t') ∧
    entry d1.results "dT_glob" 3 ≠ some 0 ∧ SameResults twoLayerOps 2000 2003 d1 d1' := by
  have h0 := length_models
  cases hb : build toyCarbon twoLayerOps optionFiles lengthCfg with
  | error e => rw [hb] at h0; cases h0
  | ok d =>
    cases hb' : build toyCarbon twoLayerOps optionFiles (withEnd lengthCfg 2006) with
    | error e => rw [hb, hb'] at h0; cases h0
    | ok d' =>
      rw [hb, hb'] at h0
      simp only at h0
      cases hr : run toyCarbon twoLayerOps d ⟨none, some [("ref_yr", .int 2002)], none⟩ with
      | error e => rw [hr] at h0; cases h0
      | ok r =>
        cases hr' : run toyCarbon twoLayerOps d' ⟨none, some [("ref_yr", .int 2002)], none⟩ with
        | error e => rw [hr, hr'] at h0; cases h0
        | ok r' =>
          rw [hr, hr'] at h0
          simp only [decide_eq_true_eq] at h0
          obtain ⟨e1, e2, e3⟩ := h0
          have hw : WF lengthCfg := by unfold WF; decide +kernel
          obtain ⟨g, hg⟩ := C74_no_forcing hw hb rfl rfl
          refine ⟨d, d', r.1, r'.1, r.2, r'.2, rfl, rfl, hr, hr', e3, ?_⟩
          rw [← e1, ← e2]
          exact C95_model_partial (ref := 2002) (es := 2001) (gt := optionGas 1) (last := 2006) toyCarbon_blind (by decide +kernel) hw
            hb hb' hg (by omega) (by omega) (Or.inl rfl) (by omega) (Or.inr (Or.inl (by omega)))
            (Or.inl ⟨"1", rfl, rfl⟩) (by decide +kernel)
            ⟨_, 1995, 2016, Or.inl ⟨"1", rfl, rfl⟩, rfl, by omega, by omega⟩
            ⟨_, 1995, 2016, Or.inl ⟨"1", rfl, rfl⟩, rfl, by omega, by omega⟩
            (fun _ _ => Or.inr ⟨by omega, by omega⟩) (by decide +kernel) hr hr'

/-- A configuration with prescribed forcing, for the years 2009 and 2010. -/
def lengthForc : Dict (CfgVal ℚ) :=
  [("nystart", .val (.int 2009)), ("nyend", .val (.int 2010)), ("forc_file", str "1")]

theorem length_forc_models :
    (match build toyCarbon twoLayerOps optionFiles lengthForc,
        build toyCarbon twoLayerOps optionFiles (withEnd lengthForc 2011) with
     | .ok d, .ok d' =>
       (match d.source, run toyCarbon twoLayerOps d ⟨none, none, none⟩, run toyCarbon twoLayerOps d' ⟨none, none, none⟩ with
        | .forcing _, .ok r, .ok _ => decide (d.nystart = 2009 ∧ d.nyend = 2010 ∧ entry r.1.results "dT_glob" 1 ≠ some 0)
        | _, _, _ => false)
     | _, _ => false) = true := by decide +kernel

/-- Every hypothesis of `C95_model_forcing` is met by this pair. -/
example : ∃ d d' d1 d1' t t', build toyCarbon twoLayerOps optionFiles lengthForc = .ok d ∧
    build toyCarbon twoLayerOps optionFiles (withEnd lengthForc 2011) = .ok d' ∧
    run toyCarbon twoLayerOps d ⟨none, none, none⟩ = .ok (d1, t) ∧ run toyCarbon twoLayerOps d' ⟨none, none, none⟩ = .ok (d1', t') ∧
    entry d1.results "dT_glob" 1 ≠ some 0 ∧ entry d1'.results "dT_glob" 1 = entry d1.results "dT_glob" 1 := by
  have h0 := length_forc_models
  cases hb : build toyCarbon twoLayerOps optionFiles lengthForc with
  | error e => rw [hb] at h0; cases h0
  | ok d =>
    cases hb' : build toyCarbon twoLayerOps optionFiles (withEnd lengthForc 2011) with
    | error e => rw [hb, hb'] at h0; cases h0
    | ok d' =>
      rw [hb, hb'] at h0
      simp only at h0
      cases hs : d.source with
      | handler g => rw [hs] at h0; cases h0
      | forcing rf =>
        cases hr : run toyCarbon twoLayerOps d ⟨none, none, none⟩ with
        | error e => rw [hs, hr] at h0; cases h0
        | ok r =>
          cases hr' : run toyCarbon twoLayerOps d' ⟨none, none, none⟩ with
          | error e => rw [hs, hr, hr'] at h0; cases h0
          | ok r' =>
            rw [hs, hr, hr'] at h0
            simp only [decide_eq_true_eq] at h0
            obtain ⟨e1, e2, e3⟩ := h0
            refine ⟨d, d', r.1, r'.1, r.2, r'.2, rfl, rfl, hr, hr', e3, ?_⟩
            have := C95_model_forcing (last := 2011) (by decide +kernel) (by unfold WF; decide +kernel) hb hb' (by omega) hs hr hr'
              2010 (by omega) (by omega) "dT_glob" (by decide +kernel)
            rw [e1] at this
            exact this

end Verif.Props
