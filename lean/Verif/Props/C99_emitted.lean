import Verif.Props.C101

/-!
# C99 from the emissions to the temperatures

With the box carbon cycle without temperature effects more CO2 emitted gives more CO2, so the order can be asked of the
inputs instead of the reported concentrations.
-/

namespace Verif.Props
open Verif.Py Verif.Py.Dict Verif.Model Verif.Model.Handler Verif.Model.Driver Verif.Model.ThermalInst Verif.Model.CarbonInst
open Verif.Spec
open Verif.Spec.Diffusion (Physical feedback Ordered Gentle)
open Verif.Spec.Tridiag (Exact)

/-- What the inputs emit of CO2 in a year: fossil fuels and land use, with their perturbations. -/
noncomputable def co2Emitted (i : Inputs ℝ) (y : ℤ) : ℝ := usedEmis i "CO2_FF" y + usedEmis i "CO2_AFOLU" y

/-- The inputs `i'` emit the CO2 of `i` in the first year and at least as much in every later year. -/
structure MoreCo2Emitted (i i' : Inputs ℝ) (ns ne : ℤ) : Prop where
  first : co2Emitted i' ns = co2Emitted i ns
  more : ∀ y, ns < y → y ≤ ne → co2Emitted i y ≤ co2Emitted i' y

/-- The range of the formulas: CO2 of both runs not below `lo` nor above 5000 ppm and within 1500 ppm of the first year, N2O up to
10000 ppb. -/
structure Co2Range (co2 co2' n2o : ℤ → ℝ) (lo : ℝ) (ns ne : ℤ) : Prop where
  low : ∀ y, ns ≤ y → y ≤ ne → lo ≤ co2 y
  top : ∀ y, ns ≤ y → y ≤ ne → co2' y ≤ 5000
  near : ∀ y, ns ≤ y → y ≤ ne → |co2 y - co2 ns| ≤ 1500 ∧ |co2' y - co2 ns| ≤ 1500
  n2o : ∀ y, ns ≤ y → y ≤ ne → 0 ≤ n2o y ∧ n2o y ≤ 10000

section
variable {τ τ' : Type} {tops : ThermalOps ℝ τ} {tops' : ThermalOps ℝ τ'}
  {i i' : Inputs ℝ} {pamset : Option (Dict (PyVal ℝ))} {ps : List (RunPams ℝ)} {p : RunPams ℝ}
  {luc : List ℝ} {ns es ne : ℤ} {d0 d d1 d0' d' d1' : Driver ℝ (BoxM ℝ)} {g g' : Handler ℝ (BoxM ℝ)} {sc sn lo : ℝ}

/-- More CO2 emitted gives more CO2 in every year, whatever the thermal models. -/
theorem co2_more_of_emitted (R : Ran boxOps tops i pamset ps p luc ns es ne g)
    (R' : Ran boxOps tops' i' pamset ps p luc ns es ne g')
    (hout : (tops.outputs.map Prod.fst ++ forcOutputList).Nodup) (hout' : (tops'.outputs.map Prod.fst ++ forcOutputList).Nodup)
    (ho : OnlyEmissionsOf co2Species i i') (hE : MoreCo2Emitted i i' ns ne)
    {P : Box.Pams ℝ} (hP : boxPams g.carbon = .ok P) (hP' : boxPams g'.carbon = .ok P)
    (B : CalmBox P.beta_f P.vegetation_to_soil_fraction P.soil_respiration_rate P.ocean_solubility_base lo)
    (hl : P.land_temp_sensitivity = 0) (ht : P.ocean_solubility_temp_coeff = 0)
    (hr : Co2Range (reportedConc g "CO2") (reportedConc g' "CO2") (reportedConc g "N2O") lo ns ne) :
    MoreCo2 (reportedConc g) (reportedConc g') ns ne := by
  obtain ⟨x, hx, -⟩ := R.gases.main "CO2" (by simp)
  have hx' : i'.gas.get? "CO2" = some x := by rw [ho.gas]; exact hx
  have hfirst := hE.first
  unfold co2Emitted at hfirst
  refine ⟨?_, ?_, fun y a b => lt_of_lt_of_le B.positive (hr.low y a b), hr.top, hr.near, hr.n2o⟩
  · obtain ⟨T, e⟩ := box_first R hout hP hx
    obtain ⟨T', e'⟩ := box_first R' hout' hP' hx'
    unfold reportedConc
    rw [e, e', hfirst, box_no_temperature hl ht _ _ T' T]
  · intro y a b
    obtain ⟨v, v', e, e', h⟩ := C99_box_more R R' hout hout' hP hP' B hl ht (fun y a b => hr.low y a b.le) hx hx' (by
      intro z z1 z2
      rcases z1.eq_or_lt with rfl | z1
      · rw [hfirst]
      · have := hE.more z z1 z2
        unfold co2Emitted at this
        linarith) y a b
    unfold reportedConc
    rw [e, e']
    exact h

/-- **C99**, from the emissions to the temperatures, two-layer model without a state dependent feedback, box carbon cycle without
temperature effects. Two emission-driven runs whose inputs differ in the emissions of CO2 only: if the second emits the same CO2 in
the first year and no less in any later year, it reports no lower temperature and no smaller heat content in any year. -/
theorem C99_emitted_two_layer {t t' : TwoLayer.Pams ℝ × TwoLayer.State ℝ}
    (R : Ran boxOps twoLayerOps i pamset ps p luc ns es ne g) (R' : Ran boxOps twoLayerOps i' pamset ps p luc ns es ne g')
    (Q : RanPlain boxOps twoLayerOps i p d0 d d1 t g) (Q' : RanPlain boxOps twoLayerOps i' p d0' d' d1' t' g')
    (hns : d0.nystart = ns) (hne : d0.nyend = ne) (hset : SameSetting d0 d0')
    (ho : OnlyEmissionsOf co2Species i i') (hes : es < ne) (hpert : i.pertForc = none) (U : UsualGases i.gas)
    (hx : Factors i.gas sc sn) (hE : MoreCo2Emitted i i' ns ne) (hsn : 0 ≤ sn) (hsc : sn ≤ 1.5 * sc)
    {P : Box.Pams ℝ} (hP : boxPams g.carbon = .ok P) (hP' : boxPams g'.carbon = .ok P)
    (B : CalmBox P.beta_f P.vegetation_to_soil_fraction P.soil_respiration_rate P.ocean_solubility_base lo)
    (hl : P.land_temp_sensitivity = 0) (ht : P.ocean_solubility_temp_coeff = 0)
    (hr : Co2Range (reportedConc g "CO2") (reportedConc g' "CO2") (reportedConc g "N2O") lo ns ne)
    {q : TwoLayer.Pams ℝ} (hq : twoLayerPams (cutAndCheckPamset twoLayerRequired (p.udm.getD []) []) = .ok q)
    (hq0 : q.delta_lambda_aero = 0) (hsmall : SmallSteps q.mixed q.deep q.k q.ocean_efficacy q.lambda)
    (hf0 : 0 ≤ q.foan + q.foas) (hf2 : q.foan + q.foas ≤ 2) :
    ∀ o ∈ ["dT_glob", "dT_fast", "dT_slow", "OHC_MIXED", "OHC_DEEP", "OHC700", "OHCTOT"],
      ∀ n : ℕ, ns + n ≤ ne → EntryLe d1.results d1'.results o n :=
  C99_warms_two_layer R R' Q Q' hns hne hset ho hes hpert U hx
    (co2_more_of_emitted R R' twoLayer_names twoLayer_names ho hE hP hP' B hl ht hr) hsn hsc hq hq0 hsmall hf0 hf2

/-- **C99**, from the emissions to the temperatures, diffusion model with constant upwelling in the physical range and without a
state dependent feedback, with the same carbon cycle. -/
theorem C99_emitted_diffusion {solve : UDM.Solver ℝ} (hsol : Exact solve) {t t' : UDM.Model ℝ}
    (R : Ran boxOps (udmOps solve) i pamset ps p luc ns es ne g) (R' : Ran boxOps (udmOps solve) i' pamset ps p luc ns es ne g')
    (Q : RanPlain boxOps (udmOps solve) i p d0 d d1 t g) (Q' : RanPlain boxOps (udmOps solve) i' p d0' d' d1' t' g')
    (hns : d0.nystart = ns) (hne : d0.nyend = ne) (hset : SameSetting d0 d0')
    (ho : OnlyEmissionsOf co2Species i i') (hes : es < ne) (hpert : i.pertForc = none) (U : UsualGases i.gas)
    (hx : Factors i.gas sc sn) (hE : MoreCo2Emitted i i' ns ne) (hsn : 0 ≤ sn) (hsc : sn ≤ 1.5 * sc)
    {P : Box.Pams ℝ} (hP : boxPams g.carbon = .ok P) (hP' : boxPams g'.carbon = .ok P)
    (B : CalmBox P.beta_f P.vegetation_to_soil_fraction P.soil_respiration_rate P.ocean_solubility_base lo)
    (hl : P.land_temp_sensitivity = 0) (ht : P.ocean_solubility_temp_coeff = 0)
    (hr : Co2Range (reportedConc g "CO2") (reportedConc g' "CO2") (reportedConc g "N2O") lo ns ne)
    {q : UDM.Pams ℝ} (hq : udmPams (cutAndCheckPamset udmRequired (p.udm.getD []) []) = .ok q) (hph : Physical q)
    (hth : q.threstemp = 0) (hord : Ordered q q.W) (hg : Gentle q q.W) (hn1 : q.foan ≤ 1) (hs1 : q.foas ≤ 1)
    (h700 : q.mixed ≤ 700) (hq0 : q.delta_lambda_aero = 0) (hfb : 0 < q.lambda) :
    ∀ o ∈ ["dT_glob", "dT_NH", "dT_SH", "dT_glob_air", "dT_NH_air", "dT_SH_air", "dT_glob_sea", "dT_NH_sea", "dT_SHsea",
        "OHC700", "OHCTOT"],
      ∀ n : ℕ, ns + n ≤ ne → EntryLe d1.results d1'.results o n :=
  C99_warms_diffusion hsol R R' Q Q' hns hne hset ho hes hpert U hx
    (co2_more_of_emitted R R' udm_names udm_names ho hE hP hP' B hl ht hr) hsn hsc hq hph hth hord hg hn1 hs1 h700 hq0 hfb

end

/-! ## The runs of C99 meet the hypotheses -/

section
open Verif.Exec Verif.Lemmas.Tridiag
variable {τ : Type}

theorem later_emitted : MoreCo2Emitted (laterInputs 0) (laterInputs 2) 1998 2003 := by
  have h : ∀ s y, co2Emitted (laterInputs s) y =
      2 * ((y - 1990 : ℤ) : ℝ) + (if 1998 < y then s else 0) + (if 2001 = y then 3 else 0) := by
    intro s y
    rw [← later_used s y, add_zero]
    rfl
  refine ⟨by rw [h, h]; norm_num, fun y a b => ?_⟩
  rw [h, h]
  split_ifs <;> linarith

theorem later_range {tops : ThermalOps ℝ τ} (hout : (tops.outputs.map Prod.fst ++ forcOutputList).Nodup)
    {udm : Option (Dict (PyVal ℝ))} {ps : List (RunPams ℝ)} {h0 h0' g g' : Handler ℝ (BoxM ℝ)} {d d1 d' d1' : Driver ℝ (BoxM ℝ)}
    {t t' : τ} (L : LaterRan tops udm 0 ps h0 d d1 t g) (L' : LaterRan tops udm 2 ps h0' d' d1' t' g') :
    Co2Range (reportedConc g "CO2") (reportedConc g' "CO2") (reportedConc g "N2O") 200 1998 2003 := by
  have hm := later_more hout L L'
  refine ⟨fun y h1 h2 => ?_, hm.top, hm.near, hm.n2o⟩
  obtain ⟨P, E, T, q1, e1, c1⟩ := ran_box L.ran hout (x := ⟨"ppm", 1, 2, 1, 0, 0, 0, 1⟩) rfl
  rw [L.pams, Except.ok.injEq] at q1
  subst q1
  obtain ⟨n, rfl⟩ : ∃ n : ℕ, y = 1998 + n := ⟨(y - 1998).toNat, by omega⟩
  have hr := calm_range (E := E) (T := T) (by
    intro m hm
    rw [e1 m (by omega), show (⟨"ppm", 1, 2, 1, 0, 0, 0, 1⟩ : Gas ℝ).natEm = 0 from rfl, later_used]
    interval_cases m <;> norm_num) (n + 1) (by omega)
  unfold reportedConc
  rw [c1 n h2]
  obtain ⟨⟨a, -⟩, -⟩ := hr
  exact le_trans (by norm_num) a

/-- Two instances, each after two runs with other parameters, one emitting 2 GtC more fossil CO2 per year from 1999 on. -/
example : ∃ (h0 h0' : Handler ℝ (BoxM ℝ)) (d d' d1 d1' : Driver ℝ (BoxM ℝ)) (t t' : TwoLayer.Pams ℝ × TwoLayer.State ℝ)
    (g g' : Handler ℝ (BoxM ℝ)), LaterRan twoLayerOps none 0 (richRuns.take 2) h0 d d1 t g ∧
    LaterRan twoLayerOps none 2 (richRuns.take 2) h0' d' d1' t' g' ∧ EntryLe d1.results d1'.results "OHC_DEEP" 5 := by
  obtain ⟨h0, d, d1, t, g, L⟩ := later_case 0
  obtain ⟨h0', d', d1', t', g', L'⟩ := later_case 2
  exact ⟨h0, h0', d, d', d1, d1', t, t', g, g', L, L', C99_emitted_two_layer L.ran L'.ran L.plain L'.plain rfl rfl
    (later_setting _ _) (later_only 0 2) (by decide) rfl (later_usual 0) (later_factors 0) later_emitted (by norm_num)
    (by norm_num) L.pams L'.pams calm_box rfl rfl (later_range twoLayer_names L L')
    (show twoLayerPams (cutAndCheckPamset (twoLayerRequired (F := ℝ)) [] []) = .ok TwoLayer.Pams.default by
      have e : twoLayerPams (cutAndCheckPamset (twoLayerRequired (F := ℝ)) [] []) =
        .ok ⟨3.74 / 3.0, ofInt 50, ofInt 1200, 0.5, ofInt 1, 0.61, 0.81, 0.0⟩ := rfl
      rw [e]
      norm_num [TwoLayer.Pams.default])
    (by norm_num [TwoLayer.Pams.default]) (by constructor <;> norm_num [TwoLayer.Pams.default])
    (by norm_num [TwoLayer.Pams.default]) (by norm_num [TwoLayer.Pams.default]) "OHC_DEEP" (by simp) 5 (by decide)⟩

/-- The same with the diffusion model. -/
example : ∃ (h0 h0' : Handler ℝ (BoxM ℝ)) (d d' d1 d1' : Driver ℝ (BoxM ℝ)) (t t' : UDM.Model ℝ) (g g' : Handler ℝ (BoxM ℝ)),
    LaterRan (udmOps exactSolver) (some flatSet) 0 [] h0 d d1 t g ∧
    LaterRan (udmOps exactSolver) (some flatSet) 2 [] h0' d' d1' t' g' ∧ EntryLe d1.results d1'.results "dT_glob" 4 := by
  obtain ⟨h0, d, d1, t, g, L⟩ := later_diffusion 0
  obtain ⟨h0', d', d1', t', g', L'⟩ := later_diffusion 2
  exact ⟨h0, h0', d, d', d1, d1', t, t', g, g', L, L', C99_emitted_diffusion exactSolver_exact L.ran L'.ran L.plain L'.plain rfl rfl
    (later_setting _ _) (later_only 0 2) (by decide) rfl (later_usual 0) (later_factors 0) later_emitted (by norm_num)
    (by norm_num) L.pams L'.pams calm_box rfl rfl (later_range udm_names L L') flat_set C35.flat_physical rfl C35.flat_ordered
    C35.flat_gentle (by simp only [C35.flatPams]; norm_num) (by simp only [C35.flatPams]; norm_num)
    (by simp only [C35.flatPams]; norm_num) (by simp only [C35.flatPams]) (by simp only [C35.flatPams]; norm_num) "dT_glob"
    (by simp) 4 (by decide)⟩

end

end Verif.Props
