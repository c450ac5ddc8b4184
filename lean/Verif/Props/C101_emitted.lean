import Verif.Props.C101

/-!
# C101 from the emissions to the temperatures

With the box carbon cycle without temperature effects the CO2 of the two runs is the same, so what is asked of the runs
can be asked of their inputs.
-/

namespace Verif.Props
open Verif.Py Verif.Py.Dict Verif.Model Verif.Model.Handler Verif.Model.Driver Verif.Model.ThermalInst Verif.Model.CarbonInst
open Verif.Spec Verif.Lemmas.Methane
open Verif.Spec.Diffusion (Physical feedback Ordered Gentle)
open Verif.Spec.Tridiag (Exact)

/-- The inputs `i'` emit at least as much methane as `i` in every year from the start of emissions: nothing negative, some
methane before, and a row for methane with a positive conversion factor and positive lifetimes. -/
structure MoreMethaneEmitted (i i' : Inputs ℝ) (ns es ne : ℤ) : Prop where
  row : ∃ x, i.gas.get? "CH4" = some x ∧ x.concUnit ≠ "-" ∧ 0 < x.beta ∧ 0 < x.tau1 ∧ 0 < x.tau2 ∧ 0 < x.tau3
  before : ∀ y, ns ≤ y → y < es → 0 < i.concIn.cell "CH4" y
  nonneg : ∀ y, es ≤ y → y ≤ ne → 0 ≤ totalEmis i "CH4" y
  more : ∀ y, es ≤ y → y ≤ ne → totalEmis i "CH4" y ≤ totalEmis i' "CH4" y

/-- The range of the formulas: at most 5000 ppb of methane, at most 1000 ppb of N2O. -/
structure MethaneRange (ch4 n2o : ℤ → ℝ) (ns ne : ℤ) : Prop where
  top : ∀ y, ns ≤ y → y ≤ ne → ch4 y ≤ 5000
  n2o : ∀ y, ns ≤ y → y ≤ ne → 0 ≤ n2o y ∧ n2o y ≤ 1000

section
variable {κ τ κ' τ' : Type} {cops : CarbonOps ℝ κ} {tops : ThermalOps ℝ τ} {cops' : CarbonOps ℝ κ'} {tops' : ThermalOps ℝ τ'}
  {i i' : Inputs ℝ} {pamset : Option (Dict (PyVal ℝ))} {ps : List (RunPams ℝ)} {p : RunPams ℝ}
  {luc : List ℝ} {ns es ne : ℤ}

/-- More methane emitted gives more methane in every year, whatever the carbon cycles and thermal models. -/
theorem more_of_emitted {g : Handler ℝ κ} {g' : Handler ℝ κ'} (R : Ran cops tops i pamset ps p luc ns es ne g)
    (R' : Ran cops' tops' i' pamset ps p luc ns es ne g')
    (ho : OnlyEmissionsOf ["CH4"] i i') (hes : es < ne) (hE : MoreMethaneEmitted i i' ns es ne)
    (hmode : g.pam.get? "lifetime_mode" ≠ some (.str "TAR"))
    (hr : MethaneRange (reportedConc g' "CH4") (reportedConc g "N2O") ns ne) :
    MoreMethane (reportedConc g) (reportedConc g') ns ne := by
  obtain ⟨x, hx, hu, hb, h1, h2, h3⟩ := hE.row
  have hpam : g'.pam = g.pam := ran_pam R R' ho.gas
  have key := C97_methane_more R R' hes.le hx (by rw [ho.gas]; exact hx) hu hu hb h1 rfl ⟨rfl, rfl, rfl⟩ (by rw [hpam]) (by
      intro c hc y
      refine usedEmis_only ho ?_ y
      simp only [List.mem_cons, List.not_mem_nil, or_false] at hc ⊢
      rcases hc with rfl | rfl | rfl <;> decide)
    (fun y a b => ⟨hE.before y a b, by rw [ho.concIn]⟩) (fun y a b => ⟨hE.nonneg y a b, hE.more y a b⟩) (by
      intro mode y c hmo _ _ _ hc
      refine methaneRate_pos ?_ h1 h2 h3 hc
      rintro rfl
      exact hmode (by rw [← hpam]; exact hmo))
  refine ⟨same_start R R' ho hes, ?_, ?_, hr.top, hr.n2o⟩
  · intro y a b
    obtain ⟨v, v', e, e', -, h⟩ := key y a b
    unfold reportedConc
    rw [e, e']
    exact h
  · intro y a b
    obtain ⟨v, v', e, e', h, -⟩ := key y a b
    unfold reportedConc
    rw [e]
    exact h

/-- The CO2 of two runs with the box carbon cycle without temperature effects that differ in the emissions of methane only. -/
theorem co2_of_emitted {g g' : Handler ℝ (BoxM ℝ)} (R : Ran boxOps tops i pamset ps p luc ns es ne g)
    (R' : Ran boxOps tops' i' pamset ps p luc ns es ne g')
    (hout : (tops.outputs.map Prod.fst ++ forcOutputList).Nodup) (hout' : (tops'.outputs.map Prod.fst ++ forcOutputList).Nodup)
    (ho : OnlyEmissionsOf ["CH4"] i i') {P : Box.Pams ℝ} (hP : boxPams g.carbon = .ok P) (hP' : boxPams g'.carbon = .ok P)
    (hl : P.land_temp_sensitivity = 0) (ht : P.ocean_solubility_temp_coeff = 0) :
    ∀ z, ns ≤ z → z ≤ ne → reportedConc g' "CO2" z = reportedConc g "CO2" z := by
  intro z h1 h2
  obtain ⟨x, hx, -⟩ := R.gases.main "CO2" (by simp)
  obtain ⟨v, e, e'⟩ := C101_box_co2 R R' hout hout' hP hP' hl ht hx (by rw [ho.gas]; exact hx) (by
    intro y _ _
    rw [usedEmis_only ho (by decide), usedEmis_only ho (by decide)]) z h1 h2
  unfold reportedConc
  rw [e, e']

variable {d0 d d1 d0' d' d1' : Driver ℝ (BoxM ℝ)} {g g' : Handler ℝ (BoxM ℝ)} {sm sn so sw qo qw : ℝ}

/-- **C101**, from the emissions to the temperatures, two-layer model without a state dependent feedback, box carbon cycle
without temperature effects, every methane lifetime but that of the TAR. Two emission-driven runs whose inputs differ in the
emissions of methane only: if the second emits no less methane in any year, it reports no lower temperature and no smaller heat
content in any year. -/
theorem C101_emitted_two_layer {t t' : TwoLayer.Pams ℝ × TwoLayer.State ℝ}
    (R : Ran boxOps twoLayerOps i pamset ps p luc ns es ne g) (R' : Ran boxOps twoLayerOps i' pamset ps p luc ns es ne g')
    (Q : RanPlain boxOps twoLayerOps i p d0 d d1 t g) (Q' : RanPlain boxOps twoLayerOps i' p d0' d' d1' t' g')
    (hns : d0.nystart = ns) (hne : d0.nyend = ne) (hset : SameSetting d0 d0')
    (ho : OnlyEmissionsOf ["CH4"] i i') (hes : es < ne) (hpert : i.pertForc = none) (U : UsualGases i.gas)
    (M : MethaneRows i.gas sm sn so sw) (hqo : pamF g.pam "qo3" = .ok qo) (hqw : pamF g.pam "qh2o_ch4" = .ok qw)
    (N : MethaneScales sm sn so sw qo qw (reportedConc g "TROP_O3" ns))
    (hE : MoreMethaneEmitted i i' ns es ne) (hmode : g.pam.get? "lifetime_mode" ≠ some (.str "TAR"))
    (hr : MethaneRange (reportedConc g' "CH4") (reportedConc g "N2O") ns ne)
    {P : Box.Pams ℝ} (hP : boxPams g.carbon = .ok P) (hP' : boxPams g'.carbon = .ok P)
    (hl : P.land_temp_sensitivity = 0) (ht : P.ocean_solubility_temp_coeff = 0)
    {q : TwoLayer.Pams ℝ} (hq : twoLayerPams (cutAndCheckPamset twoLayerRequired (p.udm.getD []) []) = .ok q)
    (hq0 : q.delta_lambda_aero = 0) (hsmall : SmallSteps q.mixed q.deep q.k q.ocean_efficacy q.lambda)
    (hf0 : 0 ≤ q.foan + q.foas) (hf2 : q.foan + q.foas ≤ 2) :
    ∀ o ∈ ["dT_glob", "dT_fast", "dT_slow", "OHC_MIXED", "OHC_DEEP", "OHC700", "OHCTOT"],
      ∀ n : ℕ, ns + n ≤ ne → EntryLe d1.results d1'.results o n :=
  C101_warms_two_layer R R' Q Q' hns hne hset ho hes hpert U M hqo hqw
    (co2_of_emitted R R' twoLayer_names twoLayer_names ho hP hP' hl ht) (more_of_emitted R R' ho hes hE hmode hr) N hq hq0 hsmall
    hf0 hf2

/-- **C101**, from the emissions to the temperatures, diffusion model with constant upwelling in the physical range and without a
state dependent feedback, with the same carbon cycle and methane lifetimes. -/
theorem C101_emitted_diffusion {solve : UDM.Solver ℝ} (hsol : Exact solve) {t t' : UDM.Model ℝ}
    (R : Ran boxOps (udmOps solve) i pamset ps p luc ns es ne g) (R' : Ran boxOps (udmOps solve) i' pamset ps p luc ns es ne g')
    (Q : RanPlain boxOps (udmOps solve) i p d0 d d1 t g) (Q' : RanPlain boxOps (udmOps solve) i' p d0' d' d1' t' g')
    (hns : d0.nystart = ns) (hne : d0.nyend = ne) (hset : SameSetting d0 d0')
    (ho : OnlyEmissionsOf ["CH4"] i i') (hes : es < ne) (hpert : i.pertForc = none) (U : UsualGases i.gas)
    (M : MethaneRows i.gas sm sn so sw) (hqo : pamF g.pam "qo3" = .ok qo) (hqw : pamF g.pam "qh2o_ch4" = .ok qw)
    (N : MethaneScales sm sn so sw qo qw (reportedConc g "TROP_O3" ns))
    (hE : MoreMethaneEmitted i i' ns es ne) (hmode : g.pam.get? "lifetime_mode" ≠ some (.str "TAR"))
    (hr : MethaneRange (reportedConc g' "CH4") (reportedConc g "N2O") ns ne)
    {P : Box.Pams ℝ} (hP : boxPams g.carbon = .ok P) (hP' : boxPams g'.carbon = .ok P)
    (hl : P.land_temp_sensitivity = 0) (ht : P.ocean_solubility_temp_coeff = 0)
    {q : UDM.Pams ℝ} (hq : udmPams (cutAndCheckPamset udmRequired (p.udm.getD []) []) = .ok q) (hph : Physical q)
    (hth : q.threstemp = 0) (hord : Ordered q q.W) (hg : Gentle q q.W) (hn1 : q.foan ≤ 1) (hs1 : q.foas ≤ 1)
    (h700 : q.mixed ≤ 700) (hq0 : q.delta_lambda_aero = 0) (hfb : 0 < q.lambda) :
    ∀ o ∈ ["dT_glob", "dT_NH", "dT_SH", "dT_glob_air", "dT_NH_air", "dT_SH_air", "dT_glob_sea", "dT_NH_sea", "dT_SHsea",
        "OHC700", "OHCTOT"],
      ∀ n : ℕ, ns + n ≤ ne → EntryLe d1.results d1'.results o n :=
  C101_warms_diffusion hsol R R' Q Q' hns hne hset ho hes hpert U M hqo hqw
    (co2_of_emitted R R' udm_names udm_names ho hP hP' hl ht) (more_of_emitted R R' ho hes hE hmode hr) N hq hph hth hord hg hn1
    hs1 h700 hq0 hfb

end

/-! ## The runs of C101 meet the hypotheses -/

open Verif.Exec Verif.Lemmas.Tridiag

theorem emitted_inputs : MoreMethaneEmitted (emitted 0) (emitted 100) 1998 2000 2003 := by
  refine ⟨⟨⟨"ppb", 1, 2, 10, 120, 160, 0, 1⟩, rfl, by decide, by norm_num, by norm_num, by norm_num, by norm_num⟩, ?_, ?_, ?_⟩
  · intro y a b
    have : (0 : ℝ) ≤ ((y - 1995 : ℤ) : ℝ) := by norm_cast; omega
    simp only [emitted, emisInputs, richInputs]
    linarith
  · intro y a b
    have : (0 : ℝ) ≤ ((y - 1990 : ℤ) : ℝ) := by norm_cast; omega
    rw [emitted_total]
    linarith
  · intro y a b
    rw [emitted_total, emitted_total]
    linarith

/-- Two instances, each after two runs with other parameters, one emitting 100 Tg of methane more per year. -/
example : ∃ (h0 h0' : Handler ℝ (BoxM ℝ)) (d d' d1 d1' : Driver ℝ (BoxM ℝ)) (t t' : TwoLayer.Pams ℝ × TwoLayer.State ℝ)
    (g g' : Handler ℝ (BoxM ℝ)), EmittedRan twoLayerOps none 0 (richRuns.take 2) h0 d d1 t g ∧
    EmittedRan twoLayerOps none 100 (richRuns.take 2) h0' d' d1' t' g' ∧ EntryLe d1.results d1'.results "OHCTOT" 5 := by
  obtain ⟨h0, d, d1, t, g, L⟩ := emitted_case 0
  obtain ⟨h0', d', d1', t', g', L'⟩ := emitted_case 100
  have hm := emitted_more L L'
  exact ⟨h0, h0', d, d', d1, d1', t, t', g, g', L, L', C101_emitted_two_layer L.ran L'.ran L.plain L'.plain rfl rfl
    (later_setting _ _) (emitted_only 0 100) (by decide) rfl (emitted_usual 0) (emitted_rows 0) L.ozone L.water
    (methane_scales (emitted_first L)) emitted_inputs (by rw [L.mode]; simp) ⟨hm.top, hm.n2o⟩ L.pams L'.pams rfl rfl
    (show twoLayerPams (cutAndCheckPamset (twoLayerRequired (F := ℝ)) [] []) = .ok TwoLayer.Pams.default by
      have e : twoLayerPams (cutAndCheckPamset (twoLayerRequired (F := ℝ)) [] []) =
        .ok ⟨3.74 / 3.0, ofInt 50, ofInt 1200, 0.5, ofInt 1, 0.61, 0.81, 0.0⟩ := rfl
      rw [e]
      norm_num [TwoLayer.Pams.default])
    (by norm_num [TwoLayer.Pams.default]) (by constructor <;> norm_num [TwoLayer.Pams.default])
    (by norm_num [TwoLayer.Pams.default]) (by norm_num [TwoLayer.Pams.default]) "OHCTOT" (by simp) 5 (by decide)⟩

/-- The same with the diffusion model. -/
example : ∃ (h0 h0' : Handler ℝ (BoxM ℝ)) (d d' d1 d1' : Driver ℝ (BoxM ℝ)) (t t' : UDM.Model ℝ) (g g' : Handler ℝ (BoxM ℝ)),
    EmittedRan (udmOps exactSolver) (some flatSet) 0 [] h0 d d1 t g ∧
    EmittedRan (udmOps exactSolver) (some flatSet) 100 [] h0' d' d1' t' g' ∧ EntryLe d1.results d1'.results "dT_glob" 4 := by
  obtain ⟨h0, d, d1, t, g, L⟩ := emitted_diffusion 0
  obtain ⟨h0', d', d1', t', g', L'⟩ := emitted_diffusion 100
  have hm := emitted_more L L'
  exact ⟨h0, h0', d, d', d1, d1', t, t', g, g', L, L', C101_emitted_diffusion exactSolver_exact L.ran L'.ran L.plain L'.plain rfl
    rfl (later_setting _ _) (emitted_only 0 100) (by decide) rfl (emitted_usual 0) (emitted_rows 0) L.ozone L.water
    (methane_scales (emitted_first L)) emitted_inputs (by rw [L.mode]; simp) ⟨hm.top, hm.n2o⟩ L.pams L'.pams rfl rfl
    flat_set C35.flat_physical rfl C35.flat_ordered C35.flat_gentle
    (by simp only [C35.flatPams]; norm_num) (by simp only [C35.flatPams]; norm_num) (by simp only [C35.flatPams]; norm_num)
    (by simp only [C35.flatPams]) (by simp only [C35.flatPams]; norm_num) "dT_glob" (by simp) 4 (by decide)⟩

end Verif.Props
