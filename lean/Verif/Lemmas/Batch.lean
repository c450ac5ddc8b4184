import Verif.Lemmas.Asked
import Verif.Props.C73
import Verif.Props.C77
import Verif.Model.Batch

/-! # The results of a used instance, tables included -/

namespace Verif.Props
open Verif.Py Verif.Py.Dict Verif.Model Verif.Model.Handler Verif.Model.Driver Verif.Spec
  Verif.Model.CarbonInst Verif.Model.CarbonOut Verif.Model.Results

section
variable {F κ τ : Type} [Add F] [Sub F] [Mul F] [Div F] [Neg F] [OfScientific F] [LT F] [DecidableLT F]
  [MathFn F]

/-- The instance after a history of runs and requests. -/
theorem afterAsked_spec (law : YearLaw F) {cops : CarbonOps F κ} {oops : OutputOps F κ} {tops : ThermalOps F τ}
    {d0 d : Driver F κ} {ps : List (RunPams F)} {h0 : Handler F κ} (hd0 : d0.source = .handler h0)
    (ha : AfterAsked cops oops tops d0 ps d) (P : κ → Prop) (h0P : P h0.carbon)
    (hstep : ∀ k y em fb r, P k → cops.step k y em fb = .ok r → P r.2)
    (hreset : ∀ p ∈ ps, ∀ k k', P k → cops.reset k p.carbon = .ok k' → P k')
    (hask : ∀ k y c l f r, P k → oops.output k y c l f = .ok r → P r.2) :
    ∃ h, d.source = .handler h ∧ P h.carbon ∧
      Kept (∀ p ∈ ps, "just_one" ∉ Dict.keys (p.emiconc.getD [])) h0 h ∧
      d = { d0 with source := d.source, results := d.results } := by
  induction ha with
  | fresh => exact ⟨h0, hd0, h0P, Kept.refl _ _, rfl⟩
  | @next ps p d d1 t _ hr ih =>
    obtain ⟨h, hd, hp, hk, hsame⟩ := ih (fun q hq => hreset q (List.mem_append_left _ hq))
    obtain ⟨g, h1, e, e1, s, hkeys, hcar, hsame1⟩ := run_handler_spec hd hr
    refine ⟨h1, e1, ?_, ?_, ?_⟩
    · apply hcar P hstep
      obtain ⟨_, c, _, hc, rfl⟩ := reset_spec e
      exact hreset p (List.mem_append_right _ (List.mem_singleton.2 rfl)) _ _ hp hc
    · have hk' : Kept (∀ q ∈ ps ++ [p], "just_one" ∉ Dict.keys (q.emiconc.getD [])) h0 h :=
        { hk with just := fun hj => hk.just (fun q hq => hj q (List.mem_append_left _ hq)) }
      exact (hk'.reset law e
        (fun hj => hj p (List.mem_append_right _ (List.mem_singleton.2 rfl)))).same s hkeys
    · rw [hsame1, hsame]
  | @asked ps d d1 b tab _ e ih =>
    obtain ⟨h, hd, hp, hk, hsame⟩ := ih hreset
    obtain ⟨k, rfl, hk'⟩ := carbonTable_spec hd e
    refine ⟨{ h with carbon := k }, rfl, ?_, ?_, ?_⟩
    · rcases hk' with rfl | ⟨y, c, l, f, r, hr, rfl⟩
      · exact hp
      · exact hask _ _ _ _ _ _ hp hr
    · exact ⟨hk.natCh4, hk.natN2o, hk.concIn, hk.emis, hk.pert, hk.years, hk.prec, hk.keys, hk.gas, hk.pam, hk.just,
        hk.before⟩
    · rw [hsame]

omit [Add F] [Sub F] [Mul F] [Div F] [Neg F] [OfScientific F] [LT F] [DecidableLT F] [MathFn F] in
theorem mapM_congr_left {α β : Type} {f g : α → Except PyErr β} {l : List α} (h : ∀ x ∈ l, f x = g x) :
    l.mapM f = l.mapM g := by
  induction l with
  | nil => rfl
  | cons a l ih =>
    rw [List.mapM_cons, List.mapM_cons, h a List.mem_cons_self, ih (fun x hx => h x (List.mem_cons_of_mem _ hx))]

/-- Answers that cannot be told apart by the reader. -/
def SameAnswers (r r' : Reader.Results F) : Prop :=
  r'.tables = r.tables ∧ ∀ o, r'.series.get? o = r.series.get? o

omit [LT F] [DecidableLT F] [MathFn F] in
theorem getVariable_congr {r r' : Reader.Results F} (h : SameAnswers r r') (ind : List ℤ) (v : String)
    (w : Reader.Units) : Reader.getVariable r' ind v w = Reader.getVariable r ind v w := by
  obtain ⟨h1, h2⟩ := h
  have h3 : ∀ o, r'.series.getE o = r.series.getE o := fun o => by unfold Dict.getE; rw [h2]
  unfold Reader.getVariable Reader.fromConc Reader.fromEm Reader.fromForc Reader.volcForcing Reader.sunForcing
  simp only [h1, h3]

omit [Add F] [Sub F] [Mul F] [Div F] [Neg F] [OfScientific F] [LT F] [DecidableLT F] [MathFn F] in
/-- A table depends only on what its columns have in the run years. -/
theorem frameOver_congr {years : List ℤ} (hy : years ≠ []) {cols cols' : List (String × (ℤ → Option F))}
    (h : ∀ z ∈ years, columnsAt cols' z = columnsAt cols z) : frameOver years cols' = frameOver years cols := by
  have hcol : ∀ c c' : String × (ℤ → Option F), (∀ z ∈ years, (c'.1, c'.2 z) = (c.1, c.2 z)) →
      columnOver years c' = columnOver years c := by
    intro c c' hc
    obtain ⟨y, ys, hys⟩ := List.exists_cons_of_ne_nil hy
    have h1 : c'.1 = c.1 := (Prod.mk.inj (hc y (by rw [hys]; simp))).1
    unfold columnOver
    rw [h1]
    have : years.mapM (cellOver c') = years.mapM (cellOver c) := by
      apply mapM_congr_left
      intro z hz
      unfold cellOver
      rw [(Prod.mk.inj (hc z hz)).2]
    rw [this]
  have : cols'.mapM (columnOver years) = cols.mapM (columnOver years) := by
    induction cols generalizing cols' with
    | nil =>
      cases cols' with
      | nil => rfl
      | cons c' cs' =>
        obtain ⟨y, ys, hys⟩ := List.exists_cons_of_ne_nil hy
        have := h y (by rw [hys]; simp)
        simp [columnsAt] at this
    | cons c cs ih =>
      cases cols' with
      | nil =>
        obtain ⟨y, ys, hys⟩ := List.exists_cons_of_ne_nil hy
        have := h y (by rw [hys]; simp)
        simp [columnsAt] at this
      | cons c' cs' =>
        have h' : ∀ z ∈ years, (c'.1, c'.2 z) = (c.1, c.2 z) ∧ columnsAt cs' z = columnsAt cs z := by
          intro z hz
          have := h z hz
          unfold columnsAt at this ⊢
          rw [List.map_cons, List.map_cons, List.cons.injEq] at this
          exact this
        rw [List.mapM_cons, List.mapM_cons, hcol c c' (fun z hz => (h' z hz).1), ih (fun z hz => (h' z hz).2)]
  unfold frameOver
  rw [this]

/-- The length of a reported series. -/
theorem run_len {cops : CarbonOps F κ} {tops : ThermalOps F τ} {d d1 : Driver F κ} {p : RunPams F} {t : τ}
    (hout : (tops.outputs.map Prod.fst ++ forcOutputList).Nodup) (hr : run cops tops d p = .ok (d1, t))
    {o : String} (ho : o ∈ tops.outputs.map Prod.fst ++ forcOutputList) :
    len d1.results o = some (d.nyend - d.nystart + 1).toNat := by
  obtain ⟨tr, htr⟩ := run_trace hr
  obtain ⟨hle, h0⟩ := initialise_spec (startRun_spec htr.start).1
  rw [show d1.results = (tr (d.nyend + 1)).results by rw [htr.last.1]]
  refine htr.keep (fun s => len s.results o = some (d.nyend - d.nystart + 1).toNat) d.nystart (d.nyend + 1)
    (by omega) ?_ ?_
  · intro z h3 h4 e
    obtain ⟨f, vn, vs, values, -, -, -, -, -, ha⟩ := yearStep_spec (htr.step z (by omega) (by omega))
    rw [(addYearData_spec hout ha).1 o, e]
  · unfold len
    rw [h0 o ho]
    simp

/-- What the two instances share after runs from related states is enough for the same answers. -/
theorem results_agree (law : YearLaw F) {cops : CarbonOps F κ} {oops : OutputOps F κ} {tops : ThermalOps F τ}
    {d0 d d1 d1' d2 : Driver F κ} {h0 h : Handler F κ} {p : RunPams F} {t t' : τ} {J : Prop} {R : Reader.Results F}
    (hnd : (tops.outputs.map Prod.fst ++ forcOutputList).Nodup)
    (hd0 : d0.source = .handler h0) (hd : d.source = .handler h) (hk : Kept J h0 h)
    (hsame : d = { d0 with source := d.source, results := d.results })
    (hne : d0.nystart ≤ d0.nyend) (hyears : h0.years = pyRange d0.nystart (d0.nyend + 1))
    (hck : (concKeysOf h0.gas h0.prec.spicy).Nodup)
    (hJ : J ∨ "just_one" ∈ Dict.keys (p.emiconc.getD []))
    (C : Prop → ℤ → κ → κ → Prop)
    (c1 : ∀ st c c', cops.reset h0.carbon p.carbon = .ok c → cops.reset h.carbon p.carbon = .ok c' →
      C st d0.nystart c c')
    (c2 : ∀ st, st → ∀ z a a' fb, d0.nystart ≤ z → z ≤ d0.nyend → C st z a a' → StepTo cops (C st (z + 1)) z fb a a')
    (c3 : ∀ st, ¬ st → ∀ z a a', d0.nystart ≤ z → C st z a a' → C st (z + 1) a a')
    (hout : ∀ st a a' b conc fbs tab k, C st (d0.nyend + 1) a a' → conc ≠ [] → (b = true → ¬ st) →
      oops.output a h0.years b conc fbs = .ok (tab, k) →
      ∃ k', oops.output a' h0.years b conc fbs = .ok (tab, k') ∧ oops.preindustrial k' = oops.preindustrial k)
    (hn0 : ∀ o, o ∉ tops.outputs.map Prod.fst ++ forcOutputList → d0.results.get? o = none)
    (hn : ∀ o, o ∉ tops.outputs.map Prod.fst ++ forcOutputList → d.results.get? o = none)
    (hr0 : run cops tops d0 p = .ok (d1, t)) (hr : run cops tops d p = .ok (d1', t'))
    (hR : runResults oops tops d1 true = .ok (R, d2)) :
    ∃ R' d2' tab, runResults oops tops d1' true = .ok (R', d2') ∧ SameAnswers R R' ∧
      carbonTable oops tops d1' true = .ok (tab, d2') := by
  obtain ⟨g, g', e, e', ag, hz⟩ := rerun_agree_full law hnd hd0 hd hk hsame hne hyears hck hJ C c1 c2 c3 hr0 hr
  have hkF : Kept False h0 h := { hk with just := fun x => x.elim }
  obtain ⟨g1, e1, k1⟩ := (Kept.refl False h0).run law hd0 hr0 (fun x => x.elim)
  obtain ⟨g1', e1', k1'⟩ := hkF.run law hd hr (fun x => x.elim)
  rw [e] at e1; cases e1
  rw [e'] at e1'; cases e1'
  have hy : g.years = h0.years := k1.years
  have hy' : g'.years = h0.years := k1'.years
  have hemis : g'.emis = g.emis := by rw [k1.emis, k1'.emis]
  have hmem : ∀ z ∈ h0.years, d0.nystart ≤ z ∧ z ≤ d0.nyend := by
    intro z hz
    rw [hyears, mem_pyRange] at hz
    omega
  have hyne : h0.years ≠ [] := by
    rw [hyears, pyRange_cons (by omega)]; simp
  -- the series
  have hns : d.nystart = d0.nystart := by rw [hsame]
  have hnE : d.nyend = d0.nyend := by rw [hsame]
  have hser : ∀ o, d1'.results.get? o = d1.results.get? o := by
    intro o
    by_cases ho : o ∈ tops.outputs.map Prod.fst ++ forcOutputList
    · have l1 := run_len hnd hr0 ho
      have l2 := run_len hnd hr ho
      rw [hns, hnE] at l2
      have hent : ∀ n < (d0.nyend - d0.nystart + 1).toNat, entry d1'.results o n = entry d1.results o n := by
        intro n hn
        have := (hz (d0.nystart + n) (by omega) (by omega)).1 o ho
        rwa [show (d0.nystart + n - d0.nystart).toNat = n by omega] at this
      unfold len at l1 l2
      unfold entry at hent
      cases ha : d1.results.get? o with
      | none => rw [ha] at l1; cases l1
      | some a =>
        cases ha' : d1'.results.get? o with
        | none => rw [ha'] at l2; cases l2
        | some a' =>
          rw [ha] at l1; rw [ha'] at l2
          rw [ha, ha'] at hent
          simp only [Option.map_some, Option.some.injEq, Option.bind_some] at l1 l2 hent
          congr 1
          apply List.ext_getElem?
          intro n
          by_cases hlt : n < (d0.nyend - d0.nystart + 1).toNat
          · exact hent n hlt
          · rw [List.getElem?_eq_none (by omega), List.getElem?_eq_none (by omega)]
    · rw [results_only hnd hr0 ho (hn0 o ho), results_only hnd hr ho (hn o ho)]
  -- the carbon table
  have hfl : d1'.feedbackList = d1.feedbackList := by
    obtain ⟨_, _, _, _, _, _, _, x⟩ := run_handler_spec hd0 hr0
    obtain ⟨_, _, _, _, _, _, _, x'⟩ := run_handler_spec hd hr
    rw [x', x, hsame]
  have hfb : feedbackSeries tops d1'.feedbackList d1'.results = feedbackSeries tops d1.feedbackList d1.results := by
    rw [hfl]
    unfold feedbackSeries Dict.getE
    simp only [hser]
  have hconc : concSeries g' "CO2" = concSeries g "CO2" := by
    unfold concSeries
    rw [ag.concKeys, hy, hy']
    by_cases hc : "CO2" ∈ g.concKeys
    · rw [if_pos hc, if_pos hc]
      apply mapM_congr_left
      intro z hzz
      rw [ag.conc "CO2" z (hmem z hzz).2]
    · rw [if_neg hc, if_neg hc]
  have hpam : pamB g'.pam "conc_run" = pamB g.pam "conc_run" := ag.pam.pamB (by decide)
  have hem : emSeries g' = emSeries g := by unfold emSeries; rw [hy, hy', hemis]
  have htab : ∀ T D, carbonTable oops tops d1 true = .ok (T, D) → ∃ D', carbonTable oops tops d1' true = .ok (T, D') := by
    intro T D hT
    unfold carbonTable at hT ⊢
    rw [e] at hT
    rw [e']
    simp only [bind_eq_ok, if_true] at hT ⊢
    obtain ⟨fbs, h1, r, h2, hT⟩ := hT
    unfold carbonCycleData at h2
    simp only [bind_eq_ok] at h2
    obtain ⟨conc, q1, cr, q2, h2⟩ := h2
    have hcne : conc ≠ [] := by
      unfold concSeries at q1
      split at q1
      · have := mapM_ok.1 q1
        rintro rfl
        have hl := congrArg List.length this
        simp only [List.length_map, List.length_nil, List.length_eq_zero_iff] at hl
        exact hyne (hy ▸ hl)
      · cases q1
    have hst : cr = true → ¬ Steps g := by
      rintro rfl ⟨hs, -⟩
      rw [q2] at hs
      cases hs
    cases cr with
    | true =>
      simp only [if_true, bind_eq_ok] at h2
      obtain ⟨⟨tb, k⟩, q3, h2⟩ := h2
      rw [pure_ok, Except.ok.injEq] at h2
      subst h2
      rw [hy] at q3
      obtain ⟨k', q3', -⟩ := hout _ _ _ _ _ _ _ _ ag.carbon hcne hst q3
      rw [pure_ok, Except.ok.injEq, Prod.mk.injEq] at hT
      refine ⟨{ d1' with source := .handler { g' with carbon := k' } }, fbs, by rw [hfb]; exact h1,
        (tb, { g' with carbon := k' }), ?_, ?_⟩
      · unfold carbonCycleData
        rw [hconc, q1, bind_ok, hpam, q2, bind_ok, hy', q3']
        rfl
      · rw [← hT.1]; rfl
    | false =>
      simp only [Bool.false_eq_true, if_false, bind_eq_ok] at h2
      obtain ⟨em, q4, ⟨tb, k⟩, q3, pre, q5, h2⟩ := h2
      rw [pure_ok, Except.ok.injEq] at h2
      subst h2
      rw [hy] at q3
      obtain ⟨k', q3', q5'⟩ := hout _ _ _ _ _ _ _ _ ag.carbon hcne hst q3
      rw [pure_ok, Except.ok.injEq, Prod.mk.injEq] at hT
      refine ⟨{ d1' with source := .handler { g' with carbon := k' } }, fbs, by rw [hfb]; exact h1,
        (Dict.set tb "Airborne fraction CO2" (Carbon.airborneFraction em conc pre), { g' with carbon := k' }), ?_, ?_⟩
      · unfold carbonCycleData
        rw [hconc, q1, bind_ok, hpam, q2, bind_ok, hy', hem, q4]
        simp only [Bool.false_eq_true, if_false, bind_ok, q3']
        rw [q5', q5]
        rfl
      · rw [← hT.1]; rfl
  -- the tables
  have hy0 : g'.y0 = g.y0 := by unfold Handler.y0; rw [hy, hy']
  have hy0' : g.y0 = .ok d0.nystart := by
    unfold Handler.y0
    rw [hy, hyears, pyRange_cons (by omega)]
  have hre : reportEmis g' = reportEmis g := by
    unfold reportEmis reportEmisRows Handler.yLast
    rw [hemis, hy, hy']
  unfold runResults at hR ⊢
  rw [e] at hR
  rw [e']
  simp only [bind_eq_ok] at hR ⊢
  obtain ⟨⟨T, D⟩, r1, y0, r2, forc, r3, emis, r4, ef, r5, cf, r6, hR⟩ := hR
  obtain ⟨D', r1'⟩ := htab T D r1
  rw [hy0', Except.ok.injEq] at r2
  subst r2
  have r3' : frameOver g'.years (reportForcing g' d0.nystart) = .ok forc := by
    rw [hy', ← r3, hy]
    exact frameOver_congr hyne (fun z hzz => (hz z (hmem z hzz).1 (hmem z hzz).2).2.2)
  have r6' : frameOver g'.years (reportConc g') = .ok cf := by
    rw [hy', ← r6, hy]
    exact frameOver_congr hyne (fun z hzz => (hz z (hmem z hzz).1 (hmem z hzz).2).2.1)
  have r5' : frameOver g'.years emis = .ok ef := by rw [hy', ← r5, hy]
  cases T with
  | none =>
    simp only [pure_ok, Except.ok.injEq, Prod.mk.injEq] at hR
    refine ⟨⟨[("emissions", ef), ("concentrations", cf), ("forcing", forc)], d1'.results⟩, D', none, ?_, ?_, r1'⟩
    · exact ⟨_, r1', _, hy0.trans hy0', _, r3', _, hre.trans r4, _, r5', _, r6', rfl⟩
    · rw [← hR.1]; exact ⟨rfl, hser⟩
  | some T =>
    simp only [pure_ok, Except.ok.injEq, Prod.mk.injEq] at hR
    refine ⟨⟨[("emissions", ef), ("concentrations", cf), ("forcing", forc)] ++ [("carbon cycle", carbonFrame g'.years T)],
      d1'.results⟩, D', some T, ?_, ?_, r1'⟩
    · exact ⟨_, r1', _, hy0.trans hy0', _, r3', _, hre.trans r4, _, r5', _, r6', rfl⟩
    · rw [← hR.1]; exact ⟨by simp only [hy, hy'], hser⟩

/-! ## The two carbon cycles -/

theorem preindustrial_congr {d d' : Dict (PyVal F)} (h : ∀ x, get? d' x = get? d x) :
    preindustrialOf d' = preindustrialOf d := by
  unfold preindustrialOf Dict.has
  rw [h, pamF_congr h]

theorem box_output_rel {st : Prop} {z : ℤ} {a a' : BoxM F} (hC : BoxRel st z a a') {years : List ℤ} {b : Bool}
    {conc : List F} {fbs : Option (Dict (List F))} {tab : List (Column F)} {k : BoxM F}
    (e : boxOutput a years b conc fbs = .ok (tab, k)) :
    ∃ k', boxOutput a' years b conc fbs = .ok (tab, k') ∧ boxOut.preindustrial k' = boxOut.preindustrial k := by
  have hpp : boxPams a' = boxPams a := by
    unfold boxPams
    simp only [pamF_congr hC.2]
  have hk := boxOutput_keeps e
  simp only at hk
  subst hk
  refine ⟨a', ?_, preindustrial_congr hC.2⟩
  unfold boxOutput at e ⊢
  rw [hpp]
  simp only [bind_eq_ok] at e ⊢
  obtain ⟨P, h1, e⟩ := e
  refine ⟨P, h1, ?_⟩
  split at e
  · cases e
  · rename_i hc
    rw [if_neg hc]
    simp only [pure_ok, Except.ok.injEq, Prod.mk.injEq] at e ⊢
    exact ⟨e.1, trivial⟩

theorem ir_output_rel {ns : ℤ} {st : Prop} {z : ℤ} {a a' : IR F} (hC : IRRel ns st z a a') {years : List ℤ} {b : Bool}
    {conc : List F} {fbs : Option (Dict (List F))} {tab : List (Column F)} {k : IR F} (hconc : conc ≠ [])
    (hb : b = true → ¬ st) (e : irOutput a years b conc fbs = .ok (tab, k)) :
    ∃ k', irOutput a' years b conc fbs = .ok (tab, k') ∧ irOut.preindustrial k' = irOut.preindustrial k := by
  obtain ⟨h1, h2, h3, h4, h5, h6, h7, h8, h9, h10⟩ := hC
  have hpp : irPams a' = irPams a := by
    unfold irPams
    simp only [pamF_congr h4, h1, h3, h5, h6]
  unfold irOutput at e
  simp only [bind_eq_ok] at e
  obtain ⟨P, p1, dt, p2, e⟩ := e
  split at e
  · cases e
  · rename_i hpos
    split at e
    · cases e
    · rename_i hlen
      have hid : 0 < P.idtm := by have := (irPams_idtm p1).1; omega
      cases b with
      | true =>
        have hz := h10 (hb rfl)
        have hz' : HoldEq zeroHold a'.hold :=
          ⟨h7.yCO2.trans hz.yCO2, h7.sCO2.trans hz.sCO2, h7.emCO2_prev.trans hz.emCO2_prev, h7.dfnpp.trans hz.dfnpp,
            h7.ss1.trans hz.ss1, h7.sums.trans hz.sums⟩
        have hbk : BackCalc.backCalculate P a'.hold conc (fun i => dt.getD i 0.0) =
            BackCalc.backCalculate P a.hold conc (fun i => dt.getD i 0.0) := by
          rw [backCalculate_fresh hid hz hconc, backCalculate_fresh hid hz' hconc]
        simp only [if_true, pure_ok, Except.ok.injEq, Prod.mk.injEq] at e
        obtain ⟨e1, e2⟩ := e
        refine ⟨{ a' with hold := (BackCalc.backCalculate P a.hold conc (fun i => dt.getD i 0.0)).2 }, ?_, ?_⟩
        · unfold irOutput
          rw [hpp, p1, bind_ok, p2, bind_ok, h1, if_neg hpos, if_neg hlen]
          simp only [if_true, pure_ok, hbk, Except.ok.injEq, Prod.mk.injEq]
          exact ⟨e1, trivial⟩
        · subst e2
          exact preindustrial_congr h4
      | false =>
        simp only [Bool.false_eq_true, if_false, pure_ok, Except.ok.injEq, Prod.mk.injEq] at e
        obtain ⟨e1, rfl⟩ := e
        refine ⟨a', ?_, preindustrial_congr h4⟩
        unfold irOutput
        rw [hpp, p1, bind_ok, p2, bind_ok, h1, if_neg hpos, if_neg hlen]
        simp only [Bool.false_eq_true, if_false, pure_ok, Except.ok.injEq, Prod.mk.injEq]
        refine ⟨?_, trivial⟩
        rw [← e1]
        have ho : Carbon.oceanFlux P a'.hold = Carbon.oceanFlux P a.hold := by
          funext y
          unfold Carbon.oceanFlux
          rw [h7.sCO2]
        rw [ho, h7.dfnpp]

/-- Other names than those of the outputs do not appear in the results of an instance. -/
theorem asked_results {cops : CarbonOps F κ} {oops : OutputOps F κ} {tops : ThermalOps F τ} {d0 d : Driver F κ}
    {ps : List (RunPams F)} (hnd : (tops.outputs.map Prod.fst ++ forcOutputList).Nodup)
    (ha : AfterAsked cops oops tops d0 ps d)
    {o : String} (ho : o ∉ tops.outputs.map Prod.fst ++ forcOutputList) (h0 : d0.results.get? o = none) :
    d.results.get? o = none := by
  induction ha with
  | fresh => exact h0
  | next _ hr ih => exact results_only hnd hr ho ih
  | @asked ps d d1 b tab _ e ih =>
    cases hd : d.source with
    | forcing f =>
      unfold carbonTable at e
      rw [hd] at e
      cases e
      exact ih
    | handler h =>
      obtain ⟨k, rfl, -⟩ := carbonTable_spec hd e
      exact ih

/-- With complete inputs every further run completes, also when the table was asked for in between. -/
theorem asked_completes {cops : CarbonOps F κ} {oops : OutputOps F κ} {tops : ThermalOps F τ} {i : Inputs F}
    {pamset carb : Option (Dict (PyVal F))} {es ref : ℤ} {P : κ → Prop}
    (law : YearLaw F) {d0 d : Driver F κ} {h0 : Handler F κ} {ps : List (RunPams F)} {p : RunPams F}
    (hg : CompleteGases i.gas) (ht : CompleteTables i d0.nystart es d0.nyend ref)
    (h1 : pamI (Factory.checkPamset pamset) "nystart" = .ok d0.nystart)
    (h2 : pamI (Factory.checkPamset pamset) "nyend" = .ok d0.nyend)
    (h3 : pamI (Factory.checkPamset pamset) "emstart" = .ok es)
    (hj : OneComponent i.gas pamset)
    (hcreate : ∃ k, cops.create (Dict.set (Factory.checkPamset pamset) "conc_run" (.bool i.concRun))
      (Dict.set (carb.getD []) "preindustrial_co2_conc" (.flt (i.concIn.cell "CO2" d0.nystart))) = .ok k ∧ P k)
    (hreset : CarbonResets cops P
      (some (Dict.set (carb.getD []) "preindustrial_co2_conc" (.flt (i.concIn.cell "CO2" d0.nystart)))))
    (w : CarbonWorks cops P d0.nystart d0.nyend)
    (hask : ∀ k y c l f r, P k → oops.output k y c l f = .ok r → P r.2)
    (hc : construct cops i pamset carb = .ok h0) (hd0 : d0.source = .handler h0) (hs : CompleteSeries d0)
    (hps : ∀ q ∈ ps ++ [p], CompleteRun cops tops P ref i.gas q)
    (ha : AfterAsked cops oops tops d0 ps d) : ∃ d1 t, run cops tops d p = .ok (d1, t) := by
  obtain ⟨h0', hc', hP0, htot⟩ := construct_ok (carb := carb) hg ht h1 h2 h3 hcreate hreset
  rw [hc, Except.ok.injEq] at hc'
  subst hc'
  have step : ∀ {d : Driver F κ} {h : Handler F κ} {p : RunPams F},
      d = { d0 with source := d.source, results := d.results } → d.source = .handler h →
      P h.carbon → Kept False h0 h → JustPam i.gas h.pam → HasFrozen h.pam → CompleteRun cops tops P ref i.gas p →
      ∃ d1 t h1, run cops tops d p = .ok (d1, t) ∧ d1.source = .handler h1 ∧ P h1.carbon ∧
        Kept False h0 h1 ∧ JustPam i.gas h1.pam ∧ HasFrozen h1.pam ∧
        d1 = { d0 with source := d1.source, results := d1.results } := by
    intro d h p hsame hd hP hk hjp hf hp
    have en : d.nystart = d0.nystart := by rw [hsame]
    have ee : d.nyend = d0.nyend := by rw [hsame]
    have hsd : CompleteSeries d := by
      rw [hsame]; exact ⟨hs.sun, hs.luc, hs.volcN, hs.volcS, hs.months⟩
    obtain ⟨d1, t, h1', hrun, hsrc, hP1, hk1, hj1, hf1, hsame1⟩ := next_run (d := d) (tops := tops)
      (P := P) law hg (by rw [en, ee]; exact ht) (by rw [en]; exact h1) (by rw [ee]; exact h2)
      h3 hc (by rw [en, ee]; exact htot) (by rw [en, ee]; exact w) hsd hd hk hjp hP hf hp
    exact ⟨d1, t, h1', hrun, hsrc, hP1, hk1, hj1, hf1, by rw [hsame1, hsame]⟩
  have key : ∃ h, d.source = .handler h ∧ P h.carbon ∧ Kept False h0 h ∧ JustPam i.gas h.pam ∧ HasFrozen h.pam ∧
      d = { d0 with source := d.source, results := d.results } := by
    have hps' : ∀ q ∈ ps, CompleteRun cops tops P ref i.gas q := fun q hq => hps q (List.mem_append_left _ hq)
    clear hps
    induction ha with
    | fresh =>
      refine ⟨h0, hd0, hP0, Kept.refl _ _, JustPam.constructed hc hj, ?_, rfl⟩
      obtain ⟨_, _, _, _, _, _, _, _, _, _, _, _, _, _, _, _, e⟩ := construct_spec hc
      rw [e]
      exact frozen_init _ _ _
    | @next ps p d d1 t h hr ih =>
      obtain ⟨g, hg', hP, hk, hjp, hf, hsame⟩ := ih (fun q hq => hps' q (List.mem_append_left _ hq))
      obtain ⟨d2, t2, g1, hrun, b1, b2, b3, b4, b5, b6⟩ := step hsame hg' hP hk hjp hf (hps' p (by simp))
      rw [hr, Except.ok.injEq, Prod.mk.injEq] at hrun
      obtain ⟨rfl, -⟩ := hrun
      exact ⟨g1, b1, b2, b3, b4, b5, b6⟩
    | asked h hr ih =>
      obtain ⟨g, hg', hP, hk, hjp, hf, hsame⟩ := ih hps'
      obtain ⟨k, e, hk'⟩ := carbonTable_spec hg' hr
      refine ⟨{ g with carbon := k }, by rw [e], ?_, ⟨hk.natCh4, hk.natN2o, hk.concIn, hk.emis, hk.pert, hk.years,
        hk.prec, hk.keys, hk.gas, hk.pam, hk.just, hk.before⟩, hjp, hf, ?_⟩
      · rcases hk' with rfl | ⟨y, c, l, f, r, ho, rfl⟩
        · exact hP
        · exact hask _ _ _ _ _ _ hP ho
      · subst e
        exact congrArg (fun x : Driver F κ => { x with source := .handler { g with carbon := k } }) hsame
  obtain ⟨h, b1, b2, b3, b4, b5, b6⟩ := key
  obtain ⟨d1, t, g1, hrun, -⟩ := step b6 b1 b2 b3 b4 b5 (hps p (by simp))
  exact ⟨d1, t, hrun⟩

end
end Verif.Props
