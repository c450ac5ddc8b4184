import Verif.Lemmas.CompleteCarbon
import Verif.Exec.RichRun

/-!
# C63: an instance built from complete inputs completes every run

The inputs are described in `Verif/Spec/Complete.lean`: every table has the rows and columns a run reads.
`C63_completes` is for every carbon cycle and thermal model that keep working; `C63_box` and `C63_default`
are for the two carbon cycles of the package with the two-layer model, where nothing is asked of the
parameter values.
-/

namespace Verif.Props
open Verif.Py Verif.Py.Dict Verif.Model Verif.Model.Handler Verif.Model.Driver Verif.Model.CarbonInst Verif.Spec

section
variable {F κ τ : Type} [Add F] [Sub F] [Mul F] [Div F] [Neg F] [OfScientific F] [LT F] [DecidableLT F]
  [MathFn F]

omit [Add F] [Sub F] [Mul F] [LT F] [DecidableLT F] [MathFn F] in
theorem frozen_init (gases : List String) (p : Option (Dict (PyVal F))) (b : Bool) :
    HasFrozen (avoidRegionalDoubleCounting gases (Dict.set (Factory.checkPamset p) "conc_run" (.bool b))) := by
  intro k hk
  rw [avoid_get? _ _ _ (by
    unfold pamsCantChange at hk
    simp only [List.mem_cons, List.not_mem_nil, or_false] at hk
    rcases hk with rfl | rfl | rfl | rfl | rfl <;> decide), get?_set]
  split
  · exact ⟨_, rfl⟩
  · rename_i hc
    apply (get?_isSome_iff _ _).2
    apply required_keys
    unfold pamsCantChange at hk
    simp only [List.mem_cons, List.not_mem_nil, or_false] at hk
    unfold Factory.handlerRequired Dict.keys
    rcases hk with rfl | rfl | rfl | rfl | rfl <;> first | exact absurd rfl hc | simp

omit [Add F] [Sub F] [Mul F] [Div F] [Neg F] [OfScientific F] [LT F] [DecidableLT F] [MathFn F] in
theorem _root_.Verif.Spec.OneComponent.absent {gas : Dict (Gas F)} {p : Option (Dict (PyVal F))}
    (h : "just_one" ∉ Dict.keys (p.getD [])) : OneComponent gas p :=
  fun _ hv => absurd (List.mem_map.2 ⟨_, hv, rfl⟩) h

/-- One more run of an instance that has kept what it was built with. -/
theorem next_run {cops : CarbonOps F κ} {tops : ThermalOps F τ} {i : Inputs F}
    {pamset carb : Option (Dict (PyVal F))} {ref es : ℤ} {P : κ → Prop} {d : Driver F κ} (law : YearLaw F)
    (hg : CompleteGases i.gas) (ht : CompleteTables i d.nystart es d.nyend ref)
    (h1 : pamI (Factory.checkPamset pamset) "nystart" = .ok d.nystart)
    (h2 : pamI (Factory.checkPamset pamset) "nyend" = .ok d.nyend)
    (h3 : pamI (Factory.checkPamset pamset) "emstart" = .ok es)
    {h0 h : Handler F κ} (e : construct cops i pamset carb = .ok h0)
    (htot : ∀ y, d.nystart ≤ y → y ≤ d.nyend → ∃ v, totVanilla h0.prec y = .ok v)
    (w : CarbonWorks cops P d.nystart d.nyend) (sr : CompleteSeries d) (hd : d.source = .handler h)
    (hk : Kept False h0 h) (hjp : JustPam i.gas h.pam) (hP : P h.carbon) (hf : HasFrozen h.pam) {p : RunPams F}
    (hp : CompleteRun cops tops P ref i.gas p) :
    ∃ d1 t h1, run cops tops d p = .ok (d1, t) ∧ d1.source = .handler h1 ∧ P h1.carbon ∧ Kept False h0 h1 ∧
      JustPam i.gas h1.pam ∧ HasFrozen h1.pam ∧ d1 = { d with source := d1.source, results := d1.results } := by
  obtain ⟨r, hr⟩ := consistency_ok (new := Factory.checkPamset p.emiconc) hf
  obtain ⟨c, hc, hPc⟩ := hp.carbon h.carbon hP
  obtain ⟨g, hgr⟩ : ∃ g, resetWithNewPams cops h p.emiconc p.carbon = .ok g := by
    unfold resetWithNewPams resetArrays
    rw [hr, bind_ok]
    simp only
    rw [hc, bind_ok]
    exact ⟨_, rfl⟩
  have hPg : P g.carbon := by
    obtain ⟨_, c', _, e2, rfl⟩ := reset_spec hgr
    rw [hc, Except.ok.injEq] at e2
    subst e2
    exact hPc
  have hfg : HasFrozen g.pam := by
    obtain ⟨_, c', e1, _, rfl⟩ := reset_spec hgr
    exact hf.reset _ e1
  have ha := able_of law hg ht h1 h2 h3 e htot hk hjp hgr hp.just hp.refYr
  obtain ⟨d1, t, h1', hrun, hsrc, hP1, hsame⟩ := years_ok w hp.thermal sr hd hgr ha hPg
  obtain ⟨h1'', hsrc', hk1⟩ := hk.run law hd hrun (fun x => x.elim)
  rw [hsrc, Source.handler.injEq] at hsrc'
  subst hsrc'
  obtain ⟨g', h1'', hg', hsrc', s, -, -, -⟩ := run_handler_spec hd hrun
  rw [hsrc, Source.handler.injEq] at hsrc'
  subst hsrc'
  rw [hgr, Except.ok.injEq] at hg'
  subst hg'
  exact ⟨d1, t, h1', hrun, hsrc, hP1, hk1, by rw [s.pam]; exact hjp.reset hgr hp.just, by rw [s.pam]; exact hfg, hsame⟩

/-- C63: with complete inputs the handler can be built, and an instance with complete series then completes
every sequence of runs whose parameter sets keep the reference year covered by the tables. -/
theorem C63_completes {cops : CarbonOps F κ} {tops : ThermalOps F τ} {i : Inputs F}
    {pamset carb : Option (Dict (PyVal F))} {ns es ne ref : ℤ} {P : κ → Prop} (law : YearLaw F)
    (hg : CompleteGases i.gas) (ht : CompleteTables i ns es ne ref)
    (h1 : pamI (Factory.checkPamset pamset) "nystart" = .ok ns)
    (h2 : pamI (Factory.checkPamset pamset) "nyend" = .ok ne)
    (h3 : pamI (Factory.checkPamset pamset) "emstart" = .ok es)
    (hj : OneComponent i.gas pamset)
    (hcreate : ∃ k, cops.create (Dict.set (Factory.checkPamset pamset) "conc_run" (.bool i.concRun))
      (Dict.set (carb.getD []) "preindustrial_co2_conc" (.flt (i.concIn.cell "CO2" ns))) = .ok k ∧ P k)
    (hreset : CarbonResets cops P
      (some (Dict.set (carb.getD []) "preindustrial_co2_conc" (.flt (i.concIn.cell "CO2" ns)))))
    (w : CarbonWorks cops P ns ne) :
    ∃ h0, construct cops i pamset carb = .ok h0 ∧
      ∀ (d0 : Driver F κ) (ps : List (RunPams F)), d0.source = .handler h0 → d0.nystart = ns → d0.nyend = ne →
        CompleteSeries d0 → (∀ p ∈ ps, CompleteRun cops tops P ref i.gas p) →
        ∃ d, After cops tops d0 ps d := by
  obtain ⟨h0, hc, hP0, htot⟩ := construct_ok hg ht h1 h2 h3 hcreate hreset
  refine ⟨h0, hc, ?_⟩
  intro d0 ps hd0 hns hne hs hps
  subst hns hne
  have key : ∃ d h, After cops tops d0 ps d ∧ d.source = .handler h ∧ P h.carbon ∧ Kept False h0 h ∧
      JustPam i.gas h.pam ∧ HasFrozen h.pam ∧ d = { d0 with source := d.source, results := d.results } := by
    induction ps using List.reverseRecOn with
    | nil =>
      refine ⟨d0, h0, .fresh, hd0, hP0, Kept.refl _ _, JustPam.constructed hc hj, ?_, rfl⟩
      obtain ⟨_, _, _, _, _, _, _, _, _, _, _, _, _, _, _, _, rfl⟩ := construct_spec hc
      exact frozen_init _ _ _
    | append_singleton ps p ih =>
      obtain ⟨d, h, ha, hd, hP, hk, hjp, hf, hsame⟩ := ih (fun q hq => hps q (List.mem_append_left _ hq))
      have en : d.nystart = d0.nystart := by rw [hsame]
      have ee : d.nyend = d0.nyend := by rw [hsame]
      have hsd : CompleteSeries d := by
        rw [hsame]; exact ⟨hs.sun, hs.luc, hs.volcN, hs.volcS, hs.months⟩
      obtain ⟨d1, t, h1', hrun, hsrc, hP1, hk1, hj1, hf1, hsame1⟩ := next_run (d := d) (tops := tops) (P := P) law hg (by rw [en, ee]; exact ht)
        (by rw [en]; exact h1) (by rw [ee]; exact h2) h3 hc (by rw [en, ee]; exact htot) (by rw [en, ee]; exact w) hsd hd
        hk hjp hP hf (hps p (by simp))
      exact ⟨d1, h1', .next ha hrun, hsrc, hP1, hk1, hj1, hf1, by rw [hsame1, hsame]⟩
  obtain ⟨d, _, ha, -⟩ := key
  exact ⟨d, ha⟩

/-- C63 for the box carbon cycle and the two-layer model: whatever the parameter sets contain. -/
theorem C63_box {i : Inputs F} {pamset carb : Option (Dict (PyVal F))} {ns es ne ref : ℤ} (law : YearLaw F)
    (hg : CompleteGases i.gas) (ht : CompleteTables i ns es ne ref)
    (h1 : pamI (Factory.checkPamset pamset) "nystart" = .ok ns)
    (h2 : pamI (Factory.checkPamset pamset) "nyend" = .ok ne)
    (h3 : pamI (Factory.checkPamset pamset) "emstart" = .ok es)
    (hj : OneComponent i.gas pamset) :
    ∃ h0, construct boxOps i pamset carb = .ok h0 ∧
      ∀ (d0 : Driver F (BoxM F)) (ps : List (RunPams F)), d0.source = .handler h0 → d0.nystart = ns →
        d0.nyend = ne → CompleteSeries d0 →
        (∀ p ∈ ps, pamI (Factory.checkPamset p.emiconc) "ref_yr" = .ok ref ∧
          OneComponent i.gas p.emiconc) →
        ∃ d, After boxOps ThermalInst.twoLayerOps d0 ps d := by
  obtain ⟨h0, hc, h⟩ := C63_completes (tops := ThermalInst.twoLayerOps) (carb := carb) law hg ht h1 h2 h3 hj
    (box_creates _ _) (box_resets _) (box_works ns ne)
  exact ⟨h0, hc, fun d0 ps hd hn he hs hps => h d0 ps hd hn he hs (fun p hp =>
    ⟨twoLayer_works _, box_resets _, (hps p hp).1, (hps p hp).2⟩)⟩

theorem _root_.Verif.Spec.NoResponse.plain {p : Dict (PyVal F)} (h : NoResponse p) : PlainIR p := by
  refine ⟨p, processFlat_plain (fun k hk => (h k hk).2.2), ?_, ?_⟩
  · rw [get?_eq_none_iff]; exact fun hk => (h _ hk).1 rfl
  · rw [get?_eq_none_iff]; exact fun hk => (h _ hk).2.1 rfl

/-- C63 for the default carbon cycle and the two-layer model, with the built-in response functions. -/
theorem C63_default {i : Inputs F} {pamset carb : Option (Dict (PyVal F))} {ns es ne ref n : ℤ} (law : YearLaw F)
    (hg : CompleteGases i.gas) (ht : CompleteTables i ns es ne ref)
    (h1 : pamI (Factory.checkPamset pamset) "nystart" = .ok ns)
    (h2 : pamI (Factory.checkPamset pamset) "nyend" = .ok ne)
    (h3 : pamI (Factory.checkPamset pamset) "emstart" = .ok es)
    (h4 : pamI (Factory.checkPamset pamset) "idtm" = .ok n) (hn : 0 < n)
    (hj : OneComponent i.gas pamset) (hcarb : ∀ p, carb = some p → NoResponse p) :
    ∃ h0, construct irOps i pamset carb = .ok h0 ∧
      ∀ (d0 : Driver F (IR F)) (ps : List (RunPams F)), d0.source = .handler h0 → d0.nystart = ns →
        d0.nyend = ne → CompleteSeries d0 →
        (∀ p ∈ ps, pamI (Factory.checkPamset p.emiconc) "ref_yr" = .ok ref ∧
          OneComponent i.gas p.emiconc ∧ ∀ q, p.carbon = some q → NoResponse q) →
        ∃ d, After irOps ThermalInst.twoLayerOps d0 ps d := by
  have hcp : PlainIR (Dict.set (carb.getD []) "preindustrial_co2_conc" (.flt (i.concIn.cell "CO2" ns))) := by
    apply NoResponse.plain
    intro key hk
    rcases (mem_keys_set _ _ _ _).1 hk with rfl | hk
    · exact ⟨by decide, by decide, by decide⟩
    · cases carb with
      | none => cases hk
      | some p => exact hcarb p rfl key hk
  obtain ⟨h0, hc, h⟩ := C63_completes (tops := ThermalInst.twoLayerOps) (carb := carb) law hg ht h1 h2 h3 hj
    (ir_creates hcp ht.order h1 h2 h4 hn)
    (ir_resets ht.order _ (fun p hp => by rw [Option.some.injEq] at hp; subst hp; exact hcp)) (ir_works ns ne)
  exact ⟨h0, hc, fun d0 ps hd hn he hs hps => h d0 ps hd hn he hs (fun p hp =>
    ⟨twoLayer_works _, ir_resets ht.order _ (fun q hq => ((hps p hp).2.2 q hq).plain), (hps p hp).1, (hps p hp).2.1⟩)⟩

end

/-! ## The hypotheses are met: inputs with aerosols, ozone, water vapour and perturbations -/

section
open Verif.Exec

theorem rich_pams : pamI (Factory.checkPamset richPam) "nystart" = .ok 1998 ∧
    pamI (Factory.checkPamset richPam) "nyend" = .ok 2003 ∧
    pamI (Factory.checkPamset richPam) "emstart" = .ok 2000 ∧
    pamI (Factory.checkPamset richPam) "idtm" = .ok 24 ∧
    pamI (Factory.checkPamset (F := ℝ) none) "ref_yr" = .ok 2010 := ⟨rfl, rfl, rfl, rfl, rfl⟩

/-- Three runs in a row, with junk in the second parameter set and other carbon parameters in the third. -/
noncomputable def richRuns : List (RunPams ℝ) :=
  [⟨none, none, none⟩, ⟨some [("lambda", .str "junk")], some [("qbmb", .flt 1), ("junk", .none)], none⟩,
   ⟨none, none, some [("beta_f", .flt 1)]⟩]

theorem rich_after_box (b : Bool) : ∃ h0 d, construct boxOps (richInputs b) richPam none = .ok h0 ∧
    After boxOps ThermalInst.twoLayerOps (richDriver h0) richRuns d := by
  obtain ⟨h1, h2, h3, -, h5⟩ := rich_pams
  obtain ⟨h0, hc, h⟩ := C63_box (carb := none) yearLaw_real rich_gases (rich_tables b) h1 h2 h3 (.absent (by decide))
  obtain ⟨d, hd⟩ := h (richDriver h0) richRuns rfl rfl rfl (rich_series h0) (by
    intro p hp
    simp only [richRuns, List.mem_cons, List.not_mem_nil, or_false] at hp
    rcases hp with rfl | rfl | rfl
    · exact ⟨h5, .absent (by decide)⟩
    · exact ⟨rfl, .absent (by simp [Dict.keys])⟩
    · exact ⟨h5, .absent (by decide)⟩)
  exact ⟨h0, d, hc, hd⟩

theorem rich_after_default (b : Bool) : ∃ h0 d, construct irOps (richInputs b) richPam none = .ok h0 ∧
    After irOps ThermalInst.twoLayerOps (richDriver h0) richRuns d := by
  obtain ⟨h1, h2, h3, h4, h5⟩ := rich_pams
  obtain ⟨h0, hc, h⟩ := C63_default (carb := none) yearLaw_real rich_gases (rich_tables b) h1 h2 h3 h4 (by decide)
    (.absent (by decide)) (by simp)
  obtain ⟨d, hd⟩ := h (richDriver h0) richRuns rfl rfl rfl (rich_series h0) (by
    intro p hp
    simp only [richRuns, List.mem_cons, List.not_mem_nil, or_false] at hp
    rcases hp with rfl | rfl | rfl
    · exact ⟨h5, .absent (by decide), by simp⟩
    · exact ⟨rfl, .absent (by simp [Dict.keys]), by simp⟩
    · refine ⟨h5, .absent (by decide), ?_⟩
      intro q hq
      simp only [Option.some.injEq] at hq
      subst hq
      intro key hk
      simp only [Dict.keys, List.map_cons, List.map_nil, List.mem_cons, List.not_mem_nil, or_false] at hk
      subst hk
      exact ⟨by decide, by decide, by decide⟩)
  exact ⟨h0, d, hc, hd⟩

end
end Verif.Props
