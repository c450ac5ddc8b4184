import Verif.Lemmas.BatchForcing
import Verif.Spec.Batch
import Verif.Props.C83_runs
import Verif.Props.C82

/-!
# C84: batches of configurations with the real model

`run_ciceroscm_parallel` gives for every configuration the rows of an instance that runs nothing else, whatever the number
of workers, the batches made of the configurations and the order in which the workers finish: for prescribed forcing
always, and for emission and concentration runs if all configurations give values for the same carbon parameters (and
`just_one`). Without that it is false.
-/

namespace Verif.Props
open Verif.Py Verif.Py.Dict Verif.Model Verif.Model.Handler Verif.Model.Driver Verif.Spec Verif.Exec
  Verif.Model.CarbonInst Verif.Model.CarbonOut Verif.Model.Results Verif.Model.Batch Verif.Model.ThermalInst

section
variable {F κ τ : Type} [Add F] [Sub F] [Mul F] [Div F] [Neg F] [OfScientific F] [LT F] [DecidableLT F]
  [MathFn F]

/-- C84 for prescribed forcing: the result has the rows of instances that run one configuration each, scenario by
scenario, for every number of workers and every schedule. -/
theorem C84_forcing {cops : CarbonOps F κ} {oops : OutputOps F κ} {tops : ThermalOps F τ} {vars : List String}
    (hnd : (tops.outputs.map Prod.fst ++ forcOutputList).Nodup)
    {scendata : List (Scenario F κ)} {cfgs : List (Cfg F)} {rows : Scenario F κ → Cfg F → List (Batch.Row F)}
    (hs : scendata ≠ []) (hc : cfgs ≠ [])
    (hbuild : ∀ s ∈ scendata, ∃ d0 rf, s.build = .ok d0 ∧ d0.source = .forcing rf ∧ d0.results = [])
    (halone : ∀ s ∈ scendata, ∀ c ∈ cfgs, Alone cops oops tops vars s c (rows s c) ∧ rows s c ≠ [])
    {w : ℤ} (hw : 1 ≤ w) {sched : Parallel.Schedule} (hv : sched.Valid (Parallel.makeRuns scendata cfgs w).length)
    (ht : sched.timedOut = false) :
    runModelParallel sched cops oops tops vars scendata cfgs w =
      .ok (scendata.flatMap fun s => cfgs.flatMap fun c => rows s c) := by
  refine C42_result hs hc (history_free_of hc (fun s hs => ?_) halone) hw hv ht
  obtain ⟨d0, rf, hb, hsrc, hres⟩ := hbuild s hs
  refine ⟨d0, hb, fun d => ∃ r, d = { d0 with results := r } ∧
    ∀ o, o ∉ tops.outputs.map Prod.fst ++ forcOutputList → r.get? o = none, ⟨[], by rw [← hres], fun _ _ => rfl⟩, ?_⟩
  rintro d c ⟨r, rfl, hr⟩ hcm d1 t R d2 hrun hR
  obtain ⟨r1, hrun', hsame⟩ := run_results_congr r hrun
  have hd1 : d1.source = .forcing rf ∧ d1 = { d0 with results := d1.results } := by
    obtain ⟨tr, htr⟩ := run_trace hrun
    have h1 := forcing_kept hnd hrun hsrc
    refine ⟨h1, ?_⟩
    have h2 := htr.last.1
    rw [h2] at h1 ⊢
    simp only at h1 ⊢
    rw [h1, hsrc]
  have hR1 : runResults oops tops d1 true = .ok (⟨[], d1.results⟩, d1) := by
    unfold runResults; rw [hd1.1]
  rw [hR1, Except.ok.injEq, Prod.mk.injEq] at hR
  obtain ⟨rfl, rfl⟩ := hR
  refine ⟨{ d1 with results := r1 }, t, ⟨[], r1⟩, { d1 with results := r1 }, hrun', ?_, ⟨rfl, ?_⟩, r1, ?_, ?_⟩
  · unfold runResults; rw [show ({ d1 with results := r1 } : Driver F κ).source = .forcing rf from hd1.1]
  · intro o
    by_cases ho : o ∈ tops.outputs.map Prod.fst ++ forcOutputList
    · exact hsame o ho
    · have e1 := results_only hnd hrun' ho (hr o ho)
      have e2 := results_only hnd hrun ho (by rw [hres]; rfl)
      exact e1.trans e2.symm
  · rw [hd1.2]
  · intro o ho
    exact results_only hnd hrun' ho (hr o ho)

/-- The step from one configuration to the next, for any carbon cycle: what is needed of it. -/
theorem handler_free (law : YearLaw F) {cops : CarbonOps F κ} {oops : OutputOps F κ} {tops : ThermalOps F τ}
    (hnd : (tops.outputs.map Prod.fst ++ forcOutputList).Nodup) {s : Scenario F κ} {cfgs : List (Cfg F)}
    {i : Inputs F} {pamset carb : Option (Dict (PyVal F))} {es ref : ℤ} {d0 : Driver F κ} {h0 : Handler F κ}
    (hn : NewFrom cops s i pamset carb es ref d0 h0) {P : κ → Prop}
    (hcreate : ∃ k, cops.create (Dict.set (Factory.checkPamset pamset) "conc_run" (.bool i.concRun))
      (Dict.set (carb.getD []) "preindustrial_co2_conc" (.flt (i.concIn.cell "CO2" d0.nystart))) = .ok k ∧ P k)
    (hreset : CarbonResets cops P
      (some (Dict.set (carb.getD []) "preindustrial_co2_conc" (.flt (i.concIn.cell "CO2" d0.nystart)))))
    (hworks : CarbonWorks cops P d0.nystart d0.nyend)
    (hask : ∀ k y c l f r, P k → oops.output k y c l f = .ok r → P r.2)
    (hcfg : ∀ c ∈ cfgs, CompleteRun cops tops P ref i.gas c.pams) (hjust : SameJustOne cfgs)
    (K : κ → Prop) (hK0 : K h0.carbon)
    (hKstep : ∀ k y em fb r, K k → cops.step k y em fb = .ok r → K r.2)
    (hKreset : ∀ c ∈ cfgs, ∀ k k', K k → cops.reset k c.pams.carbon = .ok k' → K k')
    (hKask : ∀ k y c l f r, K k → oops.output k y c l f = .ok r → K r.2)
    (C : Prop → ℤ → κ → κ → Prop)
    (hC : ∀ c ∈ cfgs, ∀ k, K k →
      (∀ st a a', cops.reset h0.carbon c.pams.carbon = .ok a → cops.reset k c.pams.carbon = .ok a' →
        C st d0.nystart a a') ∧
      (∀ st, st → ∀ z a a' fb, d0.nystart ≤ z → z ≤ d0.nyend → C st z a a' → StepTo cops (C st (z + 1)) z fb a a') ∧
      (∀ st, ¬ st → ∀ z a a', d0.nystart ≤ z → C st z a a' → C st (z + 1) a a'))
    (hout : ∀ st a a' b conc fbs tab k, C st (d0.nyend + 1) a a' → conc ≠ [] → (b = true → ¬ st) →
      oops.output a h0.years b conc fbs = .ok (tab, k) →
      ∃ k', oops.output a' h0.years b conc fbs = .ok (tab, k') ∧ oops.preindustrial k' = oops.preindustrial k) :
    ∃ d0, s.build = .ok d0 ∧ ∃ Reach : Driver F κ → Prop, Reach d0 ∧
      ∀ d c, Reach d → c ∈ cfgs → ∀ d1 t R d2, run cops tops d0 c.pams = .ok (d1, t) →
        runResults oops tops d1 true = .ok (R, d2) →
        ∃ d1' t' R' d2', run cops tops d c.pams = .ok (d1', t') ∧ runResults oops tops d1' true = .ok (R', d2') ∧
          SameAnswers R R' ∧ Reach d2' := by
  refine ⟨d0, hn.build, fun d => ∃ ps, (∀ p ∈ ps, ∃ c ∈ cfgs, c.pams = p) ∧ AfterAsked cops oops tops d0 ps d,
    ⟨[], by simp, .fresh⟩, ?_⟩
  rintro d c ⟨ps, hps, ha⟩ hcm d1 t R d2 hrun hR
  obtain ⟨d1', t', hrun'⟩ := asked_completes (p := c.pams) law hn.gases hn.tables hn.nystart hn.nyend hn.emstart hn.just
    hcreate hreset hworks hask hn.constructed hn.source hn.series
    (fun q hq => by
      rcases List.mem_append.1 hq with hq | hq
      · obtain ⟨c', hc', rfl⟩ := hps q hq
        exact hcfg c' hc'
      · rw [List.mem_singleton.1 hq]; exact hcfg c hcm) ha
  obtain ⟨h, hd, hk, hkept, hsame⟩ := afterAsked_spec law hn.source ha K hK0 hKstep
    (fun p hp k k' hk e => by
      obtain ⟨c', hc', rfl⟩ := hps p hp
      exact hKreset c' hc' k k' hk e) hKask
  obtain ⟨c1, c2, c3⟩ := hC c hcm h.carbon hk
  have h0r : ∀ o, o ∉ tops.outputs.map Prod.fst ++ forcOutputList → d0.results.get? o = none := by
    intro o _; rw [hn.noResults]; rfl
  obtain ⟨R', d2', tab, hR', hsa, htab⟩ := results_agree law hnd hn.source hd hkept hsame hn.tables.order
    (construct_years hn.constructed hn.nystart hn.nyend) (conc_nodup hn.gases.once hn.constructed)
    (by
      by_cases hj : ∀ p ∈ ps, "just_one" ∉ Dict.keys (p.emiconc.getD [])
      · exact Or.inl hj
      · right
        push Not at hj
        obtain ⟨p, hp, hj⟩ := hj
        obtain ⟨c', hc', rfl⟩ := hps p hp
        exact hjust c hcm c' hc' hj)
    C c1 c2 c3 hout h0r (fun o ho => asked_results hnd ha ho (h0r o ho)) hrun hrun' hR
  refine ⟨d1', t', R', d2', hrun', hR', hsa, ps ++ [c.pams], ?_, .asked (.next ha hrun') htab⟩
  intro p hp
  rcases List.mem_append.1 hp with hp | hp
  · exact hps p hp
  · exact ⟨c, hcm, (List.mem_singleton.1 hp).symm⟩

/-- C84 for emission and concentration runs with the default carbon cycle and any thermal model that works, for
configurations that give values for the same carbon parameters: the result has the rows of instances that run one
configuration each, scenario by scenario, for every number of workers and every schedule. -/
theorem C84_default_partial (law : YearLaw F) {tops : ThermalOps F τ} {vars : List String}
    (hnd : (tops.outputs.map Prod.fst ++ forcOutputList).Nodup)
    {scendata : List (Scenario F (IR F))} {cfgs : List (Cfg F)} {rows : Scenario F (IR F) → Cfg F → List (Batch.Row F)}
    (hs : scendata ≠ []) (hc : cfgs ≠ [])
    (hbuild : ∀ s ∈ scendata, ∃ i pamset carb es ref d0 h0 n, NewFrom irOps s i pamset carb es ref d0 h0 ∧
      pamI (Factory.checkPamset pamset) "idtm" = .ok n ∧ 0 < n ∧ (∀ p, carb = some p → NoResponse p) ∧
      ∀ c ∈ cfgs, ThermalWorks tops c.pams.udm ∧ pamI (Factory.checkPamset c.pams.emiconc) "ref_yr" = .ok ref ∧
        OneComponent i.gas c.pams.emiconc ∧ ∀ q, c.pams.carbon = some q → NoResponse q)
    (hsame : ∀ c ∈ cfgs, ∀ c' ∈ cfgs, ∀ x ∈ irChangeable (F := F), IRGives c'.pams.carbon x → IRGives c.pams.carbon x)
    (hjust : SameJustOne cfgs)
    (halone : ∀ s ∈ scendata, ∀ c ∈ cfgs, Alone irOps irOut tops vars s c (rows s c) ∧ rows s c ≠ [])
    {w : ℤ} (hw : 1 ≤ w) {sched : Parallel.Schedule} (hv : sched.Valid (Parallel.makeRuns scendata cfgs w).length)
    (ht : sched.timedOut = false) :
    runModelParallel sched irOps irOut tops vars scendata cfgs w =
      .ok (scendata.flatMap fun s => cfgs.flatMap fun c => rows s c) := by
  refine C42_result hs hc (history_free_of hc (fun s hs => ?_) halone) hw hv ht
  obtain ⟨i, pamset, carb, es, ref, d0, h0, n, hn, h4, hpos, hcarb, hcfg⟩ := hbuild s hs
  have hcp : PlainIR (Dict.set (carb.getD []) "preindustrial_co2_conc" (.flt (i.concIn.cell "CO2" d0.nystart))) := by
    apply NoResponse.plain
    intro key hk
    rcases (mem_keys_set _ _ _ _).1 hk with rfl | hk
    · exact ⟨by decide, by decide, by decide⟩
    · cases carb with
      | none => cases hk
      | some p => exact hcarb p rfl key hk
  obtain ⟨hf, hst, -, -⟩ := ir_construct hn.constructed hn.nystart hn.nyend
  refine handler_free law hnd hn (P := IRFit d0.nystart d0.nyend) (ir_creates hcp hn.tables.order hn.nystart hn.nyend h4 hpos)
    (ir_resets hn.tables.order _ (fun p hp => by rw [Option.some.injEq] at hp; subst hp; exact hcp))
    (ir_works _ _) ?_
    (fun c hc => ⟨(hcfg c hc).1, ir_resets hn.tables.order _ (fun q hq => ((hcfg c hc).2.2.2 q hq).plain),
      (hcfg c hc).2.1, (hcfg c hc).2.2.1⟩) hjust
    (IRKept (cfgs.map (·.pams.carbon)) h0.carbon) ⟨rfl, rfl, rfl, fun _ _ => Iff.rfl, fun _ _ => rfl, hf⟩
    (fun k y em fb r hk e => ir_step hk e) (fun c hc k k' hk e => ir_reset (List.mem_map_of_mem hc) hk e) ?_
    (IRRel d0.nystart) ?_ ?_
  · intro k y c l f r hP e
    have := irOutput_keeps (r := r) e
    rw [this]
    exact ⟨hP.num, hP.idtm, hP.nystart, hP.years⟩
  · intro k y c l f r hP e
    have := irOutput_keeps (r := r) e
    rw [this]
    exact ⟨hP.idtm, hP.nystart, hP.years_tot, hP.mem, hP.pam, ⟨hP.funs.rs, hP.funs.rb⟩⟩
  · intro c hc k hk
    rw [← hst]
    refine ir_fresh_rel hf hk ?_ _
    rintro x hx ⟨q, hq, hg⟩
    obtain ⟨c', hc', rfl⟩ := List.mem_map.1 hq
    exact hsame c hc c' hc' x hx hg
  · intro st a a' b conc fbs tab k hC hconc hb e
    exact ir_output_rel hC hconc hb e

/-- C84 for emission and concentration runs with the box carbon cycle. -/
theorem C84_box_partial (law : YearLaw F) {tops : ThermalOps F τ} {vars : List String}
    (hnd : (tops.outputs.map Prod.fst ++ forcOutputList).Nodup)
    {scendata : List (Scenario F (BoxM F))} {cfgs : List (Cfg F)}
    {rows : Scenario F (BoxM F) → Cfg F → List (Batch.Row F)}
    (hs : scendata ≠ []) (hc : cfgs ≠ [])
    (hbuild : ∀ s ∈ scendata, ∃ i pamset carb es ref d0 h0, NewFrom boxOps s i pamset carb es ref d0 h0 ∧
      ∀ c ∈ cfgs, ThermalWorks tops c.pams.udm ∧ pamI (Factory.checkPamset c.pams.emiconc) "ref_yr" = .ok ref ∧
        OneComponent i.gas c.pams.emiconc)
    (hsame : ∀ c ∈ cfgs, ∀ c' ∈ cfgs, ∀ x ∈ Dict.keys (boxRequired (F := F)),
      BoxGives c'.pams.carbon x → BoxGives c.pams.carbon x)
    (hjust : SameJustOne cfgs)
    (halone : ∀ s ∈ scendata, ∀ c ∈ cfgs, Alone boxOps boxOut tops vars s c (rows s c) ∧ rows s c ≠ [])
    {w : ℤ} (hw : 1 ≤ w) {sched : Parallel.Schedule} (hv : sched.Valid (Parallel.makeRuns scendata cfgs w).length)
    (ht : sched.timedOut = false) :
    runModelParallel sched boxOps boxOut tops vars scendata cfgs w =
      .ok (scendata.flatMap fun s => cfgs.flatMap fun c => rows s c) := by
  refine C42_result hs hc (history_free_of hc (fun s hs => ?_) halone) hw hv ht
  obtain ⟨i, pamset, carb, es, ref, d0, h0, hn, hcfg⟩ := hbuild s hs
  refine handler_free law hnd hn (P := BoxFit) (box_creates _ _) (box_resets _) (box_works _ _) ?_
    (fun c hc => ⟨(hcfg c hc).1, box_resets _, (hcfg c hc).2.1, (hcfg c hc).2.2⟩) hjust
    (CarbonInst.BoxKept (cfgs.map (·.pams.carbon)) h0.carbon) ⟨rfl, fun _ _ => rfl⟩
    (fun k y em fb r hP e => ⟨by rw [box_step e]; exact hP.keys, by rw [box_step e]; exact hP.pam⟩)
    (fun c hc k k' hk e => box_reset (List.mem_map_of_mem hc) hk e) ?_ BoxRel ?_ ?_
  · intro k y c l f r hP e
    have := boxOutput_keeps (r := r) (c := c) e
    rw [this]; exact hP
  · intro k y c l f r hP e
    have := boxOutput_keeps (r := r) (c := c) e
    rw [this]; exact hP
  · intro c hc k hk
    refine box_fresh_rel hk ?_ _ _
    rintro x hx ⟨q, hq, hg⟩
    obtain ⟨c', hc', rfl⟩ := List.mem_map.1 hq
    exact hsame c hc c' hc' x hx hg
  · intro st a a' b conc fbs tab k hC _ _ e
    exact box_output_rel (b := b) hC e

end

/-! ## The claim is false in general -/

/-- An emission-driven scenario (2000-2001) with the box carbon cycle. -/
def shortScenario : Scenario ℚ (BoxM ℚ) :=
  ⟨[("nystart", .int 2000), ("nyend", .int 2001)], "S", .ok ⟨[], [], []⟩, do
    let h ← construct boxOps (shortInputs false) shortPam none
    return shortDriver h⟩

/-- Two configurations; the first changes the fertilisation factor, the second gives no carbon parameters. -/
def shortCfgs : List (Cfg ℚ) := [⟨"a", ⟨none, none, some [("beta_f", .flt 1)]⟩⟩, ⟨"b", ⟨none, none, none⟩⟩]

def theTemperature : String := "Surface Air Ocean Blended Temperature Change"

/-- The two results, as far as they are compared below. -/
def twoResults : Bool :=
  match runModelParallel ⟨[0, 1], false⟩ boxOps boxOut twoLayerOps [theTemperature] [shortScenario] shortCfgs 1,
    runModelParallel ⟨[0, 1], false⟩ boxOps boxOut twoLayerOps [theTemperature] [shortScenario] shortCfgs 2 with
  | .ok r1, .ok r2 => r1.map (·.runId) == ["a", "b"] && r2.map (·.runId) == ["a", "b"] &&
      r1.map (·.values) != r2.map (·.values)
  | _, _ => false

/-- C84 is false: with one worker the second configuration gives other temperatures than with two workers. -/
theorem C84_workers_false : ∃ r1 r2,
    runModelParallel ⟨[0, 1], false⟩ boxOps boxOut twoLayerOps [theTemperature] [shortScenario] shortCfgs 1 = .ok r1 ∧
    runModelParallel ⟨[0, 1], false⟩ boxOps boxOut twoLayerOps [theTemperature] [shortScenario] shortCfgs 2 = .ok r2 ∧
    r1.map (·.runId) = ["a", "b"] ∧ r2.map (·.runId) = ["a", "b"] ∧
    r1.map (·.values) ≠ r2.map (·.values) := by
  have h : twoResults = true := by decide +kernel
  unfold twoResults at h
  split at h
  · rename_i r1 r2 e1 e2
    rw [Bool.and_eq_true, Bool.and_eq_true, beq_iff_eq, beq_iff_eq, bne_iff_ne] at h
    exact ⟨r1, r2, e1, e2, h.1.1, h.1.2, h.2⟩
  · cases h

/-! ## The hypotheses are met -/

/-- The rows of an instance whose run has a temperature series. -/
theorem alone_rows {κ τ : Type} {cops : CarbonOps ℝ κ} {oops : OutputOps ℝ κ} {tops : ThermalOps ℝ τ} {s : Scenario ℝ κ}
    {c : Cfg ℝ} {w : Wrapper ℝ κ} {d1 d2 : Driver ℝ κ} {t : τ} {r : Reader.Results ℝ} {a : List ℝ}
    (hw : wrapperInit s = .ok w) (hr : run cops tops w.cscm c.pams = .ok (d1, t))
    (hres : runResults oops tops d1 true = .ok (r, d2)) (hser : r.series = d1.results)
    (hT : d1.results.get? "dT_glob" = some a) : ∃ rows, rows ≠ [] ∧ Alone cops oops tops [theTemperature] s c rows := by
  have hv : Reader.getVariable r w.indices theTemperature w.units = .ok ⟨w.indices, a, "K"⟩ := by
    have e1 : Reader.inStr "Concentration" theTemperature = false := by decide +kernel
    have e2 : Reader.inStr "Emissions" theTemperature = false := by decide +kernel
    have e3 : Reader.inStr "Forcing" theTemperature = false := by decide +kernel
    have e4 : Reader.carbonOutputs.get? theTemperature = none := by decide +kernel
    have e5 : Reader.variableDict.get? theTemperature = some "dT_glob" := by decide +kernel
    have e6 : r.series.getE "dT_glob" = .ok a := by unfold Dict.getE; rw [hser, hT]
    unfold Reader.getVariable
    rw [e1, e2, e3, e4, e5]
    simp only [Bool.false_eq_true, if_false, e6, bind_ok]
    rw [if_pos (by decide), if_neg (by decide)]
    rfl
  refine ⟨[⟨"CICERO-SCM-PY", w.scen, c.index, w.scen, "World", theTemperature, "K", w.indices, a⟩], by simp,
    _, { w with cscm := d2 }, hw, ?_⟩
  unfold stepCfg
  simp only [hr, hres, bind_ok, List.mapM_cons, List.mapM_nil, Batch.rowOf, hv]
  rw [if_neg (by decide)]
  rfl

/-- A complete scenario with the default carbon cycle, driven by emissions (`false`) or concentrations (`true`). -/
noncomputable def cutScenario (b : Bool) : Scenario ℝ (IR ℝ) :=
  ⟨[("nystart", .int 1998), ("nyend", .int 2003)], "S", .ok richUnits, do
    let h ← construct irOps (cutInputs b) richPam none
    return richDriver h⟩

/-- A configuration with its own fertilisation factor and climate parameter. -/
noncomputable def betaCfg (name : String) (x : ℝ) : Cfg ℝ :=
  ⟨name, ⟨some [("lambda", .flt (1 + x))], none, some [("beta_f", .flt x)]⟩⟩

theorem betas_noResponse (x : ℝ) : NoResponse (F := ℝ) [("beta_f", .flt x)] := by
  intro key hk
  simp only [Dict.keys, List.map_cons, List.map_nil, List.mem_cons, List.not_mem_nil, or_false] at hk
  subst hk
  exact ⟨by decide, by decide, by decide⟩

/-- An instance that runs one of these configurations and nothing else gives rows. -/
theorem cut_alone (b : Bool) (name : String) (x : ℝ) : ∃ rows, rows ≠ [] ∧
    Alone irOps irOut twoLayerOps [theTemperature] (cutScenario b) (betaCfg name x) rows := by
  obtain ⟨h1, h2, h3, h4, h5⟩ := rich_pams
  obtain ⟨h0, hc, h⟩ := C63_default (i := cutInputs b) (carb := none) yearLaw_real rich_gases (cut_tables b) h1 h2 h3 h4
    (by decide) (.absent (by decide)) (by simp)
  obtain ⟨d1, hd⟩ := h (richDriver h0) ([] ++ [(betaCfg name x).pams]) rfl rfl rfl (rich_series h0) (by
    intro p hp
    simp only [List.nil_append, List.mem_singleton] at hp
    subst hp
    exact ⟨h5, .absent (by simp [betaCfg, Dict.keys]), fun q hq => by
      simp only [betaCfg, Option.some.injEq] at hq; subst hq; exact betas_noResponse x⟩)
  obtain ⟨d, t, ha, hr⟩ := after_snoc hd
  have := after_nil ha
  subst this
  obtain ⟨g0, g, -, hg, -⟩ := run_handler_spec (rfl : (richDriver h0).source = .handler h0) hr
  have ht := (cut_tables b).run h1 h2 h3
  have hj : NoJustOne richPam [] (betaCfg name x).pams := by
    refine ⟨by simp [richPam, Dict.keys], ?_⟩
    intro q hq
    simp only [List.nil_append, List.mem_singleton] at hq
    subst hq
    simp [betaCfg, Dict.keys]
  obtain ⟨tab, d2, htab⟩ : ∃ tab d2, carbonTable irOut twoLayerOps d1 true = .ok (tab, d2) := by
    cases b with
    | false =>
      obtain ⟨P, emis, E, T, ff, lu, temp, conc, tab, -, -, -, -, -, -, htab, -⟩ := C72_run (d0 := richDriver h0)
        yearLaw_real (cut_once false).1 twoLayer_names ht hc rfl .fresh hr hg rfl rich_co2 (by decide) rfl
        twoLayer_temperature twoLayer_first
      exact ⟨_, _, htab⟩
    | true =>
      obtain ⟨P, E, temp, tab, st, -, -, htab, -⟩ := C73_run (d0 := richDriver h0) yearLaw_real twoLayer_names ht
        rich_pams.2.2.2.1 (by decide) hc rfl .fresh hr hg rfl rich_co2 rfl twoLayer_temperature twoLayer_first
      exact ⟨_, _, htab⟩
  obtain ⟨r, hres, hser, -⟩ := C77_tables (d0 := richDriver h0) (cut_once b).1 (cut_once b).2 twoLayer_names ht hc rfl .fresh
    hr hg hj (l := 2012) rfl (by simp [richDriver]) (by simp [cutInputs, richInputs]) (by simp [cutInputs, richInputs]) htab
  obtain ⟨a, hT⟩ := results_has twoLayer_names hr (o := "dT_glob") (by simp [twoLayerOps, twoLayerOutputs])
  have hw : wrapperInit (cutScenario b) = .ok ⟨richUnits, pyRange 1998 (2003 + 1), richDriver h0, "S"⟩ := by
    have hb : (cutScenario b).build = .ok (richDriver h0) := by
      unfold cutScenario
      simp only [hc, bind_ok]
      rfl
    have hu : (cutScenario b).units = .ok richUnits := rfl
    have hn : pamI (checkNumericPamset yearDefaults (cutScenario b).data) "nystart" = .ok 1998 := rfl
    have he : pamI (checkNumericPamset yearDefaults (cutScenario b).data) "nyend" = .ok 2003 := rfl
    unfold wrapperInit
    simp only [hn, he, hu, hb, bind_ok]
    rfl
  exact alone_rows hw hr hres hser hT

/-- Two scenarios, three configurations with different carbon and climate parameters, any number of workers: one row for
each scenario and configuration, that of an instance that runs nothing else. -/
example : ∃ rows : Scenario ℝ (IR ℝ) → Cfg ℝ → List (Batch.Row ℝ),
    ∀ (w : ℤ) (sched : Parallel.Schedule), 1 ≤ w → sched.timedOut = false →
      sched.Valid (Parallel.makeRuns [cutScenario false, cutScenario true]
        [betaCfg "a" 1, betaCfg "b" 2, betaCfg "c" 3] w).length →
      runModelParallel sched irOps irOut twoLayerOps [theTemperature] [cutScenario false, cutScenario true]
        [betaCfg "a" 1, betaCfg "b" 2, betaCfg "c" 3] w =
      .ok ([cutScenario false, cutScenario true].flatMap fun s =>
        [betaCfg "a" 1, betaCfg "b" 2, betaCfg "c" 3].flatMap fun c => rows s c) := by
  obtain ⟨h1, h2, h3, h4, h5⟩ := rich_pams
  have hal : ∀ s ∈ [cutScenario false, cutScenario true], ∀ c ∈ [betaCfg "a" 1, betaCfg "b" 2, betaCfg "c" 3],
      ∃ rows, Alone irOps irOut twoLayerOps [theTemperature] s c rows ∧ rows ≠ [] := by
    intro s hs c hc
    obtain ⟨b, rfl⟩ : ∃ b, s = cutScenario b := by
      simp only [List.mem_cons, List.not_mem_nil, or_false] at hs
      rcases hs with rfl | rfl <;> exact ⟨_, rfl⟩
    obtain ⟨n, x, rfl⟩ : ∃ n x, c = betaCfg n x := by
      simp only [List.mem_cons, List.not_mem_nil, or_false] at hc
      rcases hc with rfl | rfl | rfl <;> exact ⟨_, _, rfl⟩
    obtain ⟨rows, e1, e2⟩ := cut_alone b n x
    exact ⟨rows, e2, e1⟩
  classical
  refine ⟨fun s c => if h : ∃ rows, Alone irOps irOut twoLayerOps [theTemperature] s c rows ∧ rows ≠ [] then h.choose
    else [], fun w sched hw ht hv => ?_⟩
  refine C84_default_partial yearLaw_real twoLayer_names (by simp) (by simp) ?_ ?_ ?_ ?_ hw hv ht
  · intro s hs
    obtain ⟨b, rfl⟩ : ∃ b, s = cutScenario b := by
      simp only [List.mem_cons, List.not_mem_nil, or_false] at hs
      rcases hs with rfl | rfl <;> exact ⟨_, rfl⟩
    obtain ⟨h0, hc, -⟩ := C63_default (i := cutInputs b) (carb := none) yearLaw_real rich_gases (cut_tables b) h1 h2 h3 h4
      (by decide) (.absent (by decide)) (by simp)
    refine ⟨cutInputs b, richPam, none, 2000, 2010, richDriver h0, h0, 24, ?_, h4, by decide, by simp, ?_⟩
    · exact ⟨by unfold cutScenario; simp only [hc, bind_ok]; rfl, rfl, rfl, hc, rich_gases, cut_tables b, h1, h2, h3,
        .absent (by decide), rich_series h0⟩
    · intro c hcm
      obtain ⟨n, x, rfl⟩ : ∃ n x, c = betaCfg n x := by
        simp only [List.mem_cons, List.not_mem_nil, or_false] at hcm
        rcases hcm with rfl | rfl | rfl <;> exact ⟨_, _, rfl⟩
      exact ⟨twoLayer_works _, h5, .absent (by simp [betaCfg, Dict.keys]), fun q hq => by
        simp only [betaCfg, Option.some.injEq] at hq; subst hq; exact betas_noResponse x⟩
  · intro c hcm c' hcm' x _ hg
    obtain ⟨n, y, rfl⟩ : ∃ n x, c = betaCfg n x := by
      simp only [List.mem_cons, List.not_mem_nil, or_false] at hcm
      rcases hcm with rfl | rfl | rfl <;> exact ⟨_, _, rfl⟩
    obtain ⟨n', y', rfl⟩ : ∃ n x, c' = betaCfg n x := by
      simp only [List.mem_cons, List.not_mem_nil, or_false] at hcm'
      rcases hcm' with rfl | rfl | rfl <;> exact ⟨_, _, rfl⟩
    obtain ⟨p, new, e1, e2, e3⟩ := hg
    have hp : ∀ z : ℝ, processFlat [("beta_f", .flt z)] = .ok [("beta_f", .flt z)] := fun z =>
      processFlat_plain (fun k hk => (betas_noResponse z k hk).2.2)
    simp only [betaCfg, Option.some.injEq] at e1
    subst e1
    rw [hp, Except.ok.injEq] at e2
    subst e2
    refine ⟨_, _, rfl, hp y, ?_⟩
    rcases e3 with ⟨v, hv, -⟩ | ⟨h, hk⟩
    · simp only [List.mem_singleton, Prod.mk.injEq] at hv
      exact Or.inl ⟨.flt y, by rw [hv.1]; simp, rfl⟩
    · simp only [Dict.keys, List.map_cons, List.map_nil, List.mem_singleton] at hk
      subst hk
      rcases h with h | h <;> simp at h
  · intro c hcm c' hcm' h
    exfalso
    simp only [List.mem_cons, List.not_mem_nil, or_false] at hcm'
    rcases hcm' with rfl | rfl | rfl <;> simp [betaCfg, Dict.keys] at h
  · intro s hs c hc
    simp only [dif_pos (hal s hs c hc)]
    exact (hal s hs c hc).choose_spec

/-- The same with the box carbon cycle. -/
noncomputable def boxScenario (b : Bool) : Scenario ℝ (BoxM ℝ) :=
  ⟨[("nystart", .int 1998), ("nyend", .int 2003)], "S", .ok richUnits, do
    let h ← construct boxOps (cutInputs b) richPam none
    return richDriver h⟩

theorem box_alone (b : Bool) (name : String) (x : ℝ) : ∃ rows, rows ≠ [] ∧
    Alone boxOps boxOut twoLayerOps [theTemperature] (boxScenario b) (betaCfg name x) rows := by
  obtain ⟨h1, h2, h3, h4, h5⟩ := rich_pams
  obtain ⟨h0, hc, h⟩ := C63_box (i := cutInputs b) (carb := none) yearLaw_real rich_gases (cut_tables b) h1 h2 h3
    (.absent (by decide))
  obtain ⟨d1, hd⟩ := h (richDriver h0) ([] ++ [(betaCfg name x).pams]) rfl rfl rfl (rich_series h0) (by
    intro p hp
    simp only [List.nil_append, List.mem_singleton] at hp
    subst hp
    exact ⟨h5, .absent (by simp [betaCfg, Dict.keys])⟩)
  obtain ⟨d, t, ha, hr⟩ := after_snoc hd
  have := after_nil ha
  subst this
  obtain ⟨g0, g, -, hg, -⟩ := run_handler_spec (rfl : (richDriver h0).source = .handler h0) hr
  have ht := (cut_tables b).run h1 h2 h3
  have hj : NoJustOne richPam [] (betaCfg name x).pams := by
    refine ⟨by simp [richPam, Dict.keys], ?_⟩
    intro q hq
    simp only [List.nil_append, List.mem_singleton] at hq
    subst hq
    simp [betaCfg, Dict.keys]
  obtain ⟨tab, d2, htab⟩ : ∃ tab d2, carbonTable boxOut twoLayerOps d1 true = .ok (tab, d2) := by
    cases b with
    | false =>
      obtain ⟨P, emis, E, T, ff, lu, temp, conc, tab, -, -, -, -, -, htab, -⟩ := C82_run (d0 := richDriver h0)
        yearLaw_real (cut_once false).1 twoLayer_names ht hc rfl .fresh hr hg rfl rich_co2 (by decide) rfl
        twoLayer_temperature twoLayer_first
      exact ⟨_, _, htab⟩
    | true =>
      obtain ⟨P, temp, tab, -, htab, -⟩ := C82_conc_run (d0 := richDriver h0) yearLaw_real twoLayer_names ht
        hc rfl .fresh hr hg rfl rich_co2 rfl twoLayer_temperature twoLayer_first
      exact ⟨_, _, htab⟩
  obtain ⟨r, hres, hser, -⟩ := C77_tables (d0 := richDriver h0) (cut_once b).1 (cut_once b).2 twoLayer_names ht hc rfl .fresh
    hr hg hj (l := 2012) rfl (by simp [richDriver]) (by simp [cutInputs, richInputs]) (by simp [cutInputs, richInputs]) htab
  obtain ⟨a, hT⟩ := results_has twoLayer_names hr (o := "dT_glob") (by simp [twoLayerOps, twoLayerOutputs])
  have hw : wrapperInit (boxScenario b) = .ok ⟨richUnits, pyRange 1998 (2003 + 1), richDriver h0, "S"⟩ := by
    have hb : (boxScenario b).build = .ok (richDriver h0) := by
      unfold boxScenario
      simp only [hc, bind_ok]
      rfl
    have hu : (boxScenario b).units = .ok richUnits := rfl
    have hn : pamI (checkNumericPamset yearDefaults (boxScenario b).data) "nystart" = .ok 1998 := rfl
    have he : pamI (checkNumericPamset yearDefaults (boxScenario b).data) "nyend" = .ok 2003 := rfl
    unfold wrapperInit
    simp only [hn, he, hu, hb, bind_ok]
    rfl
  exact alone_rows hw hr hres hser hT

/-- Box carbon cycle: one scenario, any list of such configurations, any number of workers. -/
example (names : List (String × ℝ)) (hne : names ≠ []) : ∃ rows : Scenario ℝ (BoxM ℝ) → Cfg ℝ → List (Batch.Row ℝ),
    ∀ (w : ℤ) (sched : Parallel.Schedule), 1 ≤ w → sched.timedOut = false →
      sched.Valid (Parallel.makeRuns [boxScenario false] (names.map fun p => betaCfg p.1 p.2) w).length →
      runModelParallel sched boxOps boxOut twoLayerOps [theTemperature] [boxScenario false]
        (names.map fun p => betaCfg p.1 p.2) w =
      .ok ([boxScenario false].flatMap fun s => (names.map fun p => betaCfg p.1 p.2).flatMap fun c => rows s c) := by
  obtain ⟨h1, h2, h3, h4, h5⟩ := rich_pams
  have hal : ∀ s ∈ [boxScenario false], ∀ c ∈ names.map fun p => betaCfg p.1 p.2,
      ∃ rows, Alone boxOps boxOut twoLayerOps [theTemperature] s c rows ∧ rows ≠ [] := by
    intro s hs c hc
    rw [List.mem_singleton.1 hs]
    obtain ⟨p, -, rfl⟩ := List.mem_map.1 hc
    obtain ⟨rows, e1, e2⟩ := box_alone false p.1 p.2
    exact ⟨rows, e2, e1⟩
  classical
  refine ⟨fun s c => if h : ∃ rows, Alone boxOps boxOut twoLayerOps [theTemperature] s c rows ∧ rows ≠ [] then h.choose
    else [], fun w sched hw ht hv => ?_⟩
  refine C84_box_partial yearLaw_real twoLayer_names (by simp) (by simpa using hne) ?_ ?_ ?_ ?_ hw hv ht
  · intro s hs
    rw [List.mem_singleton.1 hs]
    obtain ⟨h0, hc, -⟩ := C63_box (i := cutInputs false) (carb := none) yearLaw_real rich_gases (cut_tables false) h1 h2 h3
      (.absent (by decide))
    refine ⟨cutInputs false, richPam, none, 2000, 2010, richDriver h0, h0, ?_, ?_⟩
    · exact ⟨by unfold boxScenario; simp only [hc, bind_ok]; rfl, rfl, rfl, hc, rich_gases, cut_tables false, h1, h2, h3,
        .absent (by decide), rich_series h0⟩
    · intro c hcm
      obtain ⟨p, -, rfl⟩ := List.mem_map.1 hcm
      exact ⟨twoLayer_works _, h5, .absent (by simp [betaCfg, Dict.keys])⟩
  · intro c hcm c' hcm' x _ hg
    obtain ⟨p, -, rfl⟩ := List.mem_map.1 hcm
    obtain ⟨p', -, rfl⟩ := List.mem_map.1 hcm'
    obtain ⟨new, e1, v, hv, -⟩ := hg
    simp only [betaCfg, Option.some.injEq] at e1
    subst e1
    simp only [List.mem_singleton, Prod.mk.injEq] at hv
    exact ⟨_, rfl, .flt p.2, by rw [hv.1]; simp, rfl⟩
  · intro c hcm c' hcm' h
    exfalso
    obtain ⟨p', -, rfl⟩ := List.mem_map.1 hcm'
    simp [betaCfg, Dict.keys] at h
  · intro s hs c hc
    simp only [dif_pos (hal s hs c hc)]
    exact (hal s hs c hc).choose_spec

/-- Prescribed forcing of two years, any list of configurations (which may differ in the parameters they give), any number
of workers. -/
example (cfgs : List (Cfg ℝ)) (hne : cfgs ≠ []) (hwf : ∀ c ∈ cfgs, ∀ q, c.pams.udm = some q → Dict.WF q) :
    let s : Scenario ℝ Unit := ⟨[("nystart", .int 2000), ("nyend", .int 2001)], "S", .ok richUnits, .ok exRfDriver⟩
    let oops : OutputOps ℝ Unit := ⟨fun _ _ _ _ _ => .error .keyError, fun _ => .error .keyError⟩
    ∃ rows : Scenario ℝ Unit → Cfg ℝ → List (Batch.Row ℝ),
    ∀ (w : ℤ) (sched : Parallel.Schedule), 1 ≤ w → sched.timedOut = false →
      sched.Valid (Parallel.makeRuns [s] cfgs w).length →
      runModelParallel sched noCarbon oops twoLayerOps [theTemperature] [s] cfgs w =
      .ok ([s].flatMap fun s => cfgs.flatMap fun c => rows s c) := by
  intro s oops
  have hal : ∀ s' ∈ [s], ∀ c ∈ cfgs,
      ∃ rows, Alone noCarbon oops twoLayerOps [theTemperature] s' c rows ∧ rows ≠ [] := by
    intro s' hs c hc
    rw [List.mem_singleton.1 hs]
    obtain ⟨d1, t, hr⟩ := C41_succeeds noCarbon (p := c.pams) (d := exRfDriver) (xs := [1, 2]) (hwf c hc) rfl
      (by simp [exRfDriver]) (by simp [exRfDriver]) (by simp [exRfDriver]) (by simp [exRfDriver]) (by simp [exRfDriver])
      (by
        intro i vn vs h1 h2
        have : exRfDriver.volcN = exRfDriver.volcS := rfl
        rw [this, h2] at h1
        simp only [Option.some.injEq] at h1
        rw [h1])
    obtain ⟨a, hT⟩ := results_has twoLayer_names hr (o := "dT_glob") (by simp [twoLayerOps, twoLayerOutputs])
    obtain ⟨rows, e1, e2⟩ := alone_rows (s := s) (c := c) (oops := oops)
      (w := ⟨richUnits, pyRange 2000 (2001 + 1), exRfDriver, "S"⟩) rfl hr
      (r := ⟨[], d1.results⟩) (d2 := d1) (by unfold runResults; rw [forcing_kept twoLayer_names hr rfl]) rfl hT
    exact ⟨rows, e2, e1⟩
  classical
  refine ⟨fun s c => if h : ∃ rows, Alone noCarbon oops twoLayerOps [theTemperature] s c rows ∧ rows ≠ [] then h.choose
    else [], fun w sched hw ht hv => ?_⟩
  refine C84_forcing twoLayer_names (by simp) hne ?_ ?_ hw hv ht
  · intro s' hs
    rw [List.mem_singleton.1 hs]
    exact ⟨exRfDriver, _, rfl, rfl, rfl⟩
  · intro s' hs c hc
    simp only [dif_pos (hal s' hs c hc)]
    exact (hal s' hs c hc).choose_spec

end Verif.Props
