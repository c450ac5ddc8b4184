import Verif.Props.C99
import Verif.Props.C100

/-!
# C101: more methane emitted

Two emission-driven runs whose inputs differ in the emissions of methane only.
-/

namespace Verif.Props
open Verif.Py Verif.Py.Dict Verif.Model Verif.Model.Handler Verif.Model.Driver Verif.Model.ThermalInst Verif.Model.CarbonInst
open Verif.Spec Verif.Lemmas.Methane
open Verif.Spec.Diffusion (Physical feedback Ordered Gentle)
open Verif.Spec.Tridiag (Exact)

section
variable {κ τ κ' τ' : Type} {cops : CarbonOps ℝ κ} {tops : ThermalOps ℝ τ} {cops' : CarbonOps ℝ κ'} {tops' : ThermalOps ℝ τ'}
  {i i' : Inputs ℝ} {pamset : Option (Dict (PyVal ℝ))} {ps : List (RunPams ℝ)} {p : RunPams ℝ}
  {luc : List ℝ} {ns es ne : ℤ} {g : Handler ℝ κ} {g' : Handler ℝ κ'} {sm sn so sw qo qw : ℝ}

/-- The formulas of the components methane reaches depend on four concentrations only. -/
theorem forcing_main {D D' : ForcingData} {k : String} (hk : k ∈ ["CO2", "CH4", "N2O", "STRAT_H2O", "TROP_O3"])
    (hst : D'.start = D.start) (hyr : D'.year = D.year) (hs : D'.sarf = D.sarf) (ha : D'.alpha = D.alpha) (hp : D'.par = D.par)
    (hc : ∀ c ∈ ["CO2", "CH4", "N2O", "TROP_O3"], ∀ z ∈ [D.start, D.year], D'.conc c z = D.conc c z)
    (h0 : k ∈ ["STRAT_H2O", "TROP_O3"] → D.alpha k = 0) : D'.forcing k = D.forcing k := by
  have c1 := hc "CO2" (by simp) D.start (by simp)
  have c2 := hc "CO2" (by simp) D.year (by simp)
  have c3 := hc "CH4" (by simp) D.start (by simp)
  have c4 := hc "CH4" (by simp) D.year (by simp)
  have c5 := hc "N2O" (by simp) D.start (by simp)
  have c6 := hc "N2O" (by simp) D.year (by simp)
  have c7 := hc "TROP_O3" (by simp) D.start (by simp)
  have c8 := hc "TROP_O3" (by simp) D.year (by simp)
  have hme : D'.methane = D.methane := by
    unfold ForcingData.methane
    rw [hst, hyr, hs, c3, c4, c5, c6]
  simp only [List.mem_cons, List.not_mem_nil, or_false] at hk
  unfold ForcingData.forcing
  rcases hk with rfl | rfl | rfl | rfl | rfl
  · simp only [if_true, hst, hyr, hs, c1, c2, c5, c6]
  · simp only [if_true, if_neg (show ("CH4" : String) ≠ "CO2" by decide), hme]
  · simp only [if_true, if_neg (show ("N2O" : String) ≠ "CO2" by decide), if_neg (show ("N2O" : String) ≠ "CH4" by decide),
      hst, hyr, hs, c1, c2, c3, c4, c5, c6]
  · have := h0 (by simp)
    simp only [if_neg (show ("STRAT_H2O" : String) ≠ "CO2" by decide), if_neg (show ("STRAT_H2O" : String) ≠ "CH4" by decide),
      if_neg (show ("STRAT_H2O" : String) ≠ "N2O" by decide), if_neg (show ("STRAT_H2O" : String) ≠ "LANDUSE" by decide),
      if_neg not_aerosol_strings.2, ha, this, ne_eq, not_true_eq_false, if_false,
      if_neg (show ("STRAT_H2O" : String) ≠ "TROP_O3" by decide), if_true, hs, hp, hme]
  · have := h0 (by simp)
    simp only [if_neg (show ("TROP_O3" : String) ≠ "CO2" by decide), if_neg (show ("TROP_O3" : String) ≠ "CH4" by decide),
      if_neg (show ("TROP_O3" : String) ≠ "N2O" by decide), if_neg (show ("TROP_O3" : String) ≠ "LANDUSE" by decide),
      if_neg not_aerosol_strings.1, ha, this, ne_eq, not_true_eq_false, if_false, if_true]
    unfold ForcingData.ozone
    simp only [hst, hyr, hs, hp, c7, c8]

/-- The forcings of a run without perturbations of the forcing, from what the run reports. -/
theorem ran_forcing (R : Ran cops tops i pamset ps p luc ns es ne g) (hpert : i.pertForc = none) {y : ℤ} (hy1 : ns ≤ y)
    (hy2 : y ≤ ne) : ∃ emis l, perturbedEmis i = .ok emis ∧ luc[(y - ns).toNat]? = some l ∧
      ∀ k, Yearly i.gas k → ∃ c ∈ reportForcing g ns, c.1 = columnName k ∧ c.2 y = some ((obs g i emis l ns y).forcing k) := by
  have O := fun emis l => obs_observed R emis l y
  obtain ⟨hg, he, ht, hp, carb, h0, d0, d, d1, t, hc, hd0, rfl, rfl, rfl, ha, hrn, hs⟩ := id R
  obtain ⟨emis, l, e1, e2, e3⟩ := C59_run hg.once hg.notTotal ht hc hd0 ha hrn hs hy1 hy2
  refine ⟨emis, l, e1, e2, fun k hk => ?_⟩
  obtain ⟨c, hm, hck, hcy⟩ := e3 _ (O emis l) k hk
  refine ⟨c, hm, hck, ?_⟩
  rw [hcy, hpert]
  simp [pertOf]

/-- The reported ozone of a run, from what the run reports. -/
theorem ran_ozone (R : Ran cops tops i pamset ps p luc ns es ne g) {x : Gas ℝ} (hx : i.gas.get? "TROP_O3" = some x)
    (hu : x.concUnit = "-") (hx0 : x.alpha = 0) {y : ℤ} (hy1 : ns ≤ y) (hy2 : y ≤ ne) :
    ∃ emis ref m0, perturbedEmis i = .ok emis ∧ pamI g.pam "ref_yr" = .ok ref ∧ i.concIn.at' "CH4" ref = .ok m0 ∧
      reportedConc g "TROP_O3" y = (obs g i emis 0 ns y).ozoneConc ref m0 := by
  have O := fun emis l => obs_observed R emis l y
  have C := fun c hc => concOf_mem (c := c) R hc
  obtain ⟨hg, he, ht, hp, carb, h0, d0, d, d1, t, hc, hd0, rfl, rfl, rfl, ha, hrn, hs⟩ := id R
  obtain ⟨emis, ref, m0, e1, e2, e3, e4⟩ := C59_run_ozone hg.once hg.notTotal ht hc hd0 ha hrn hs hy1 hy2
    ⟨x, hx, Or.inl hu, by decide, by decide⟩ hx hx0
  refine ⟨emis, ref, m0, e1, e2, e3, ?_⟩
  obtain ⟨c, hm, hck, hcy⟩ := e4 _ 0 (O emis 0)
  unfold reportedConc
  rw [← hck, C c hm, hcy]
  rfl

/-- The reported N2O does not react. -/
theorem same_n2o (R : Ran cops tops i pamset ps p luc ns es ne g) (R' : Ran cops' tops' i' pamset ps p luc ns es ne g')
    (ho : OnlyEmissionsOf ["CH4"] i i') (hne : es < ne) (U : UsualGases i.gas) :
    ∀ y, ns ≤ y → y ≤ ne → reportedConc g' "N2O" y = reportedConc g "N2O" y := by
  intro y h1 h2
  obtain ⟨x, hx, hu⟩ := R.gases.main "N2O" (by simp)
  obtain ⟨v, e1, e2⟩ := C97_conc R R' ho hne hx (by decide) (Or.inr ⟨by decide, hu, U.n2o x hx⟩) (by decide) y h1 h2
  unfold reportedConc
  rw [e1, e2]

/-- Neither does the methane of the start year. -/
theorem same_start (R : Ran cops tops i pamset ps p luc ns es ne g) (R' : Ran cops' tops' i' pamset ps p luc ns es ne g')
    (ho : OnlyEmissionsOf ["CH4"] i i') (hne : es < ne) : reportedConc g' "CH4" ns = reportedConc g "CH4" ns := by
  obtain ⟨x, hx, hu⟩ := R.gases.main "CH4" (by simp)
  have hes : ns < es := R.tables.order (by rw [concRun_pam, R.emission])
  obtain ⟨v, hv, s1, -⟩ := methane_series R hne.le hx hu
  obtain ⟨v', hv', s1', -⟩ := methane_series R' hne.le (by rw [ho.gas]; exact hx) hu
  unfold reportedConc
  rw [hv ns le_rfl (by omega), hv' ns le_rfl (by omega), s1 ns le_rfl hes (by omega), s1' ns le_rfl hes (by omega), ho.concIn]

/-- The components methane reaches, each by its documented effect. -/
theorem reached (R : Ran cops tops i pamset ps p luc ns es ne g) (R' : Ran cops' tops' i' pamset ps p luc ns es ne g')
    (ho : OnlyEmissionsOf ["CH4"] i i') (hne : es < ne) (hpert : i.pertForc = none) (U : UsualGases i.gas)
    (M : MethaneRows i.gas sm sn so sw) (hqo : pamF g.pam "qo3" = .ok qo) (hqw : pamF g.pam "qh2o_ch4" = .ok qw)
    (hco2 : ∀ z, ns ≤ z → z ≤ ne → reportedConc g' "CO2" z = reportedConc g "CO2" z) {y : ℤ} (hy1 : ns ≤ y) (hy2 : y ≤ ne)
    {k : String} (hk : k ∈ ["CO2", "CH4", "N2O", "STRAT_H2O", "TROP_O3"]) (hkg : k ∈ i.gas.keys) :
    ∃ c ∈ reportForcing g ns, ∃ c' ∈ reportForcing g' ns, c.1 = columnName k ∧ c'.1 = columnName k ∧ ∃ v, c.2 y = some v ∧
      c'.2 y = some (v + methaneReach sm sn so sw qo qw (reportedConc g "TROP_O3" ns) (reportedConc g) (reportedConc g') ns y k) := by
  have hpam := ran_pam R R' ho.gas
  have hn := same_n2o R R' ho hne U
  have hm := same_start R R' ho hne
  have hle : ns ≤ ne := hy1.trans hy2
  obtain ⟨x, hx⟩ := (get?_isSome_iff _ _).2 hkg
  have hY : Yearly i.gas k := by
    refine ⟨x, hx, ?_, ?_, ?_⟩
    · simp only [List.mem_cons, List.not_mem_nil, or_false] at hk
      rcases hk with rfl | rfl | rfl | rfl | rfl
      · simp
      · simp
      · simp
      · exact Or.inl (M.water x hx).1
      · exact Or.inl (M.ozone x hx).1
    · rintro rfl; revert hk; decide
    · rintro rfl; revert hk; decide
  obtain ⟨emis, l, e1, e2, e3⟩ := ran_forcing R hpert hy1 hy2
  obtain ⟨emis', l', e1', e2', e3'⟩ := ran_forcing R' (by rw [ho.pertForc]; exact hpert) hy1 hy2
  rw [e2, Option.some.injEq] at e2'
  subst e2'
  obtain ⟨c, hc, n1, v1⟩ := e3 k hY
  obtain ⟨c', hc', n1', v1'⟩ := e3' k (by rw [ho.gas]; exact hY)
  refine ⟨c, hc, c', hc', n1, n1', _, v1, ?_⟩
  rw [v1', Option.some.injEq]
  -- ozone
  have ozone : k = "TROP_O3" → ∀ z, ns ≤ z → z ≤ ne → reportedConc g' "TROP_O3" z =
      reportedConc g "TROP_O3" z + 6.7 * (Real.log (reportedConc g' "CH4" z) - Real.log (reportedConc g "CH4" z)) := by
    rintro rfl z h1 h2
    obtain ⟨o1, o2, -⟩ := M.ozone x hx
    obtain ⟨em, ref, m0, a1, a2, a3, a4⟩ := ran_ozone R hx o1 o2 h1 h2
    obtain ⟨em', ref', m0', b1, b2, b3, b4⟩ := ran_ozone R' (by rw [ho.gas]; exact hx) o1 o2 h1 h2
    rw [hpam, a2, Except.ok.injEq] at b2
    subst b2
    rw [ho.concIn, a3, Except.ok.injEq] at b3
    subst b3
    have he : ∀ c ∈ ["NOx", "CO", "NMVOC"], ∀ z, em'.at' c z = em.at' c z := fun c hc z =>
      at_only ho a1 b1 (by revert hc; revert c; decide) z
    rw [a4, b4]
    unfold ForcingData.ozoneConc obs reportedConc
    simp only [he "NOx" (by simp), he "CO" (by simp), he "NMVOC" (by simp)]
    ring
  have conc : ∀ c z, (obs g i emis l ns y).conc c z = reportedConc g c z := fun _ _ => rfl
  have sarf : ∀ k x, i.gas.get? k = some x → (obs g i emis l ns y).sarf k = x.sarf := fun k x hx => by simp [obs, hx]
  have alpha : ∀ k x, i.gas.get? k = some x → (obs g i emis l ns y).alpha k = x.alpha := fun k x hx => by simp [obs, hx]
  have range : ∀ z ∈ [ns, y], ns ≤ z ∧ z ≤ ne := by
    intro z hz
    simp only [List.mem_cons, List.not_mem_nil, or_false] at hz
    rcases hz with rfl | rfl <;> omega
  set cc : String → ℤ → ℝ := fun c z => if c = "CH4" ∨ c = "TROP_O3" then reportedConc g' c z else reportedConc g c z with hcc
  have key := forcing_reach (D := obs g i emis l ns y) (c := cc) (u := reportedConc g) (u' := reportedConc g') (qo := qo) (qw := qw)
    (o0 := reportedConc g "TROP_O3" ns) (k := k) (sm := sm) (sn := sn) (so := so) (sw := sw)
    (by
      intro k a b z _
      simp only [hcc, a, b, or_self, if_false]
      rfl)
    (by
      intro k hk z hz
      obtain ⟨z1, z2⟩ := range z hz
      refine ⟨rfl, ?_⟩
      simp only [List.mem_cons, List.not_mem_nil, or_false] at hk
      rcases hk with rfl | rfl | rfl
      · simp [hcc, hco2 z z1 z2]
      · simp [hcc, hn z z1 z2]
      · simp [hcc])
    (by obtain ⟨x, hx, hs⟩ := M.ch4; rw [sarf _ x hx, hs])
    (by obtain ⟨x, hx, hs⟩ := M.n2o; rw [sarf _ x hx, hs])
    (by
      rintro rfl
      obtain ⟨o1, o2, o3⟩ := M.ozone x hx
      refine ⟨by rw [alpha _ x hx, o2], by rw [sarf _ x hx, o3], by simp [obs, hqo], rfl, ?_, ?_⟩
      · show cc "TROP_O3" ns = _
        simp only [hcc, or_true, if_true]
        rw [ozone rfl ns le_rfl hle, hm]
        ring
      · show cc "TROP_O3" y = _
        simp only [hcc, or_true, if_true]
        exact ozone rfl y hy1 hy2)
    (by
      rintro rfl
      obtain ⟨o1, o2, o3⟩ := M.water x hx
      exact ⟨by rw [alpha _ x hx, o2], by rw [sarf _ x hx, o3], by simp [obs, hqw]⟩)
  rw [show ns = (obs g i emis l ns y).start from rfl] at key
  refine Eq.trans ?_ key
  refine forcing_main hk rfl rfl ?_ ?_ ?_ ?_ ?_
  · simp only [obs, ho.gas]
  · simp only [obs, ho.gas]
  · simp only [obs, hpam]
  · intro c hc z hz
    obtain ⟨z1, z2⟩ := range z hz
    change reportedConc g' c z = cc c z
    simp only [List.mem_cons, List.not_mem_nil, or_false] at hc
    rcases hc with rfl | rfl | rfl | rfl
    · simp [hcc, hco2 z z1 z2]
    · simp [hcc]
    · simp [hcc, hn z z1 z2]
    · simp [hcc]
  · intro h
    change (obs g i emis l ns y).alpha k = 0
    simp only [List.mem_cons, List.not_mem_nil, or_false] at h
    rcases h with rfl | rfl
    · rw [alpha _ x hx, (M.water x hx).2.1]
    · rw [alpha _ x hx, (M.ozone x hx).2.1]

/-- **C101**, forcings. Two instances whose inputs differ in the emissions of methane only, driven by emissions, without
perturbations of the forcing, new or after runs with the same parameters, with the same reported CO2 (the carbon cycle reacts to
methane through the temperature only). For all carbon cycles and thermal models and in every year: the reports have the same
components; CH4, N2O, stratospheric water vapour and tropospheric ozone each move by the documented effect of the reported
methane, and every other component is the same. -/
theorem C101_forcing (R : Ran cops tops i pamset ps p luc ns es ne g) (R' : Ran cops' tops' i' pamset ps p luc ns es ne g')
    (ho : OnlyEmissionsOf ["CH4"] i i') (hne : es < ne) (hpert : i.pertForc = none) (U : UsualGases i.gas)
    (M : MethaneRows i.gas sm sn so sw) (hqo : pamF g.pam "qo3" = .ok qo) (hqw : pamF g.pam "qh2o_ch4" = .ok qw)
    (hco2 : ∀ z, ns ≤ z → z ≤ ne → reportedConc g' "CO2" z = reportedConc g "CO2" z) {y : ℤ} (hy1 : ns ≤ y) (hy2 : y ≤ ne) :
    List.Forall₂ (fun c c' => c'.1 = c.1 ∧
        (c.1 ∈ methaneNames → ∃ v, c.2 y = some v ∧ c'.2 y = some (v + methaneReach sm sn so sw qo qw
          (reportedConc g "TROP_O3" ns) (reportedConc g) (reportedConc g') ns y c.1)) ∧
        (c.1 ∉ methaneNames → c.1 ≠ "Total_forcing" → c'.2 y = c.2 y))
      (reportForcing g ns) (reportForcing g' ns) := by
  have hgas := R.gases.once
  obtain ⟨hgs, hcols, hspi, hval⟩ := ahead_same R R' ho hpert (by
    rintro k ⟨x, hx, -, -, n2, -⟩ hm
    exact n2 (List.mem_singleton.1 hm))
  obtain ⟨emis, clbr, -, -, -, hpre, hfk, hyrs⟩ := ran_prec R
  obtain ⟨emis', clbr', -, -, -, -, hfk', hyrs'⟩ := ran_prec R'
  obtain ⟨hvg, -, hsp⟩ := mem_spicy hpre
  have nd := ran_nodup R U.notDirect
  have nd' := ran_nodup R' (by rw [ho.gas]; exact U.notDirect)
  have pick : ∀ {κ : Type} {g : Handler ℝ κ}, ((reportForcing g ns).map Prod.fst).Nodup → ∀ {a b : String × (ℤ → Option ℝ)},
      a ∈ reportForcing g ns → b ∈ reportForcing g ns → a.1 = b.1 → a.2 y = b.2 y := by
    intro κ g nd a b ha hb e
    rw [List.inj_on_of_nodup_map nd ha hb e]
  have e1 : reportForcing g' ns = g.forcKeys.map (fun k => (reportName k, fun y =>
        if y < ns ∨ g.years.length ≤ (y - ns).toNat then none else some (g'.forc k (y - ns).toNat)))
      ++ g.prec.erf.cols.map (fun k => (reportName k, fun y => g'.prec.erf.val k y)) := by
    unfold reportForcing
    rw [hfk', hspi, ← hfk, hcols, hyrs', ← hyrs]
  have e0 : reportForcing g ns = g.forcKeys.map (fun k => (reportName k, fun y =>
        if y < ns ∨ g.years.length ≤ (y - ns).toNat then none else some (g.forc k (y - ns).toNat)))
      ++ g.prec.erf.cols.map (fun k => (reportName k, fun y => g.prec.erf.val k y)) := rfl
  have mem0 : ∀ a ∈ g.forcKeys.map (fun k => (reportName k, fun y =>
        if y < ns ∨ g.years.length ≤ (y - ns).toNat then none else some (g.forc k (y - ns).toNat)))
      ++ g.prec.erf.cols.map (fun k => (reportName k, fun y => g.prec.erf.val k y)), a ∈ reportForcing g ns := fun _ h => h
  have mem1 : ∀ a ∈ g.forcKeys.map (fun k => (reportName k, fun y =>
        if y < ns ∨ g.years.length ≤ (y - ns).toNat then none else some (g'.forc k (y - ns).toNat)))
      ++ g.prec.erf.cols.map (fun k => (reportName k, fun y => g'.prec.erf.val k y)), a ∈ reportForcing g' ns := by
    intro a h
    rw [e1]
    exact h
  have plainName : ∀ s ∈ methaneNames, ∀ t, reportName t = s → t = s := by
    intro s hs t e
    unfold reportName at e
    split at e
    · subst e
      exact absurd hs (by decide)
    · exact e
  have glue : ∀ P : String × (ℤ → Option ℝ) → String × (ℤ → Option ℝ) → Prop,
      (∀ t ∈ g.forcKeys, P (reportName t, fun y =>
          if y < ns ∨ g.years.length ≤ (y - ns).toNat then none else some (g.forc t (y - ns).toNat))
        (reportName t, fun y =>
          if y < ns ∨ g.years.length ≤ (y - ns).toNat then none else some (g'.forc t (y - ns).toNat))) →
      (∀ t ∈ g.prec.erf.cols, P (reportName t, fun y => g.prec.erf.val t y) (reportName t, fun y => g'.prec.erf.val t y)) →
      List.Forall₂ P (reportForcing g ns) (reportForcing g' ns) := by
    intro P h1 h2
    rw [e0, e1]
    exact List.rel_append (List.forall₂_map_left_iff.2 (List.forall₂_map_right_iff.2 (List.forall₂_same.2 h1)))
      (List.forall₂_map_left_iff.2 (List.forall₂_map_right_iff.2 (List.forall₂_same.2 h2)))
  apply glue
  · intro t htm
    have ha := mem0 _ (List.mem_append_left _ (List.mem_map.2 ⟨t, htm, rfl⟩))
    have hb := mem1 _ (List.mem_append_left _ (List.mem_map.2 ⟨t, htm, rfl⟩))
    have inGas : t ≠ "Total_forcing" → t ∈ i.gas.keys := fun q => by
      rw [hfk] at htm
      have := forced_gas htm q
      rw [hsp] at this
      exact (List.mem_filter.1 this).1
    refine ⟨rfl, fun hin => ?_, fun hout q3 => ?_⟩
    · have q := plainName _ hin t rfl
      rw [← q] at hin
      have hT : t ≠ "Total_forcing" := by rintro rfl; revert hin; decide
      obtain ⟨c, hc, c', hc', k1, k2, v, w1, w2⟩ := reached R R' ho hne hpert U M hqo hqw hco2 hy1 hy2 (k := t)
        (List.mem_cons_of_mem _ (by
          simp only [methaneNames, List.mem_cons, List.not_mem_nil, or_false] at hin ⊢
          exact hin)) (inGas hT)
      refine ⟨v, ?_, ?_⟩
      · rw [pick nd ha hc (by rw [k1]; rfl), w1]
      · rw [pick nd' hb hc' (by rw [k2]; rfl), w2, ← q]
    · have hT : t ≠ "Total_forcing" := by
        rintro rfl
        exact q3 (by unfold reportName; rw [if_neg (by decide)])
      have htk := inGas hT
      have hn : t ∉ methaneNames := by
        intro h
        apply hout
        have : reportName t = t := by
          unfold reportName
          rw [if_neg (by rintro rfl; revert h; decide)]
        rw [this]
        exact h
      by_cases q1 : t = "CO2"
      · subst q1
        obtain ⟨c, hc, c', hc', k1, k2, v, w1, w2⟩ := reached R R' ho hne hpert U M hqo hqw hco2 hy1 hy2 (k := "CO2")
          (by simp) htk
        rw [pick nd' hb hc' (by rw [k2]; rfl), pick nd ha hc (by rw [k1]; rfl), w1, w2]
        simp [methaneReach]
      · have ht : t ∈ g.prec.spicy ∧ t ≠ "CO2.1" := by
          rw [hfk] at htm
          refine ⟨forced_gas htm hT, ?_⟩
          unfold forcKeysOf at htm
          simp only at htm
          have : t ∈ g.prec.spicy.filter (fun t => t ≠ "CO2.1") := by
            split at htm
            · exact htm
            · rcases List.mem_append.1 htm with h | h
              · exact h
              · exact absurd (List.mem_singleton.1 h) hT
          simpa using (List.mem_filter.1 this).2
        obtain ⟨ht, ht1⟩ := ht
        rw [hsp] at ht
        obtain ⟨-, h2⟩ := List.mem_filter.1 ht
        simp only [decide_eq_true_eq] at h2
        obtain ⟨x, hxt⟩ := (get?_isSome_iff _ _).2 htk
        have hY : Yearly i.gas t := by
          refine ⟨x, hxt, ?_, h2.2, ht1⟩
          by_contra hcon
          rw [not_or, not_or, not_or] at hcon
          exact h2.1 ((mem_vanilla hgas hvg t).2 ⟨x, hxt, hcon.1, hcon.2.1, hcon.2.2.1, hcon.2.2.2⟩)
        simp only [methaneNames, List.mem_cons, List.not_mem_nil, or_false, not_or] at hn
        obtain ⟨c, hc, c', hc', k1, k2, v, w1, w2⟩ := C97_forcing R R' ho hne U.n2o U.ch4 U.ozone hY q1 hn.2.1
          (by
            unfold forcReach
            rw [if_neg (not_or.2 ⟨hn.1, hn.2.2.1⟩), if_neg hn.2.2.2]
            split_ifs
            · decide
            · decide
            · intro c hc
              rw [List.mem_singleton] at hc ⊢
              rw [hc]
              exact hn.1) hy1 hy2
        rw [pick nd' hb hc' (by rw [k2]; rfl), pick nd ha hc (by rw [k1]; rfl), w1, w2]
  · intro t htm
    have hv := hval t htm y hy1 hy2
    refine ⟨rfl, fun hin => ?_, fun _ _ => hv⟩
    have q := plainName _ hin t rfl
    rw [← q] at hin
    exfalso
    rcases (erf_cols_eq hgas hpre).2 t htm with ⟨a, -⟩ | rfl
    · obtain ⟨x, hx, hu, n1, n2, n3⟩ := (mem_vanilla hgas hvg t).1 a
      simp only [methaneNames, List.mem_cons, List.not_mem_nil, or_false] at hin
      rcases hin with rfl | rfl | rfl | rfl
      · exact n2 rfl
      · exact n3 rfl
      · exact hu (M.water x hx).1
      · exact hu (M.ozone x hx).1
    · revert hin
      decide

/-- The effects of more methane are not negative, but that on N2O, which is at most as large as that on CH4. -/
theorem methane_not_negative (R : Ran cops tops i pamset ps p luc ns es ne g)
    (R' : Ran cops' tops' i' pamset ps p luc ns es ne g') (ho : OnlyEmissionsOf ["CH4"] i i') (hne : es < ne) (U : UsualGases i.gas)
    (hco2 : ∀ z, ns ≤ z → z ≤ ne → reportedConc g' "CO2" z = reportedConc g "CO2" z)
    (hm : MoreMethane (reportedConc g) (reportedConc g') ns ne) {o0 : ℝ} (N : MethaneScales sm sn so sw qo qw o0)
    {y : ℤ} (hy1 : ns ≤ y) (hy2 : y ≤ ne) :
    (∀ k, k ≠ "N2O" → 0 ≤ methaneReach sm sn so sw qo qw o0 (reportedConc g) (reportedConc g') ns y k) ∧
    0 ≤ methaneReach sm sn so sw qo qw o0 (reportedConc g) (reportedConc g') ns y "CH4" +
      methaneReach sm sn so sw qo qw o0 (reportedConc g) (reportedConc g') ns y "N2O" := by
  have hn := same_n2o R R' ho hne U
  have hnn : ns ≤ ne := hy1.trans hy2
  set t' : String → ℤ → ℝ := fun c z => if c = "CH4" then reportedConc g' c z else reportedConc g c z with ht'
  have hm' : MoreMethane (reportedConc g) t' ns ne :=
    ⟨by simpa [ht'] using hm.start, by simpa [ht'] using hm.more, hm.pos, by simpa [ht'] using hm.top, hm.n2o⟩
  have hot : ∀ c, c ≠ "CH4" → ∀ y, t' c y = reportedConc g c y := fun c hc y => by simp [ht', hc]
  have e1 : methaneEffect sm (reportedConc g) t' ns y = methaneEffect sm (reportedConc g) (reportedConc g') ns y := by
    unfold methaneEffect
    rw [hot "N2O" (by decide), hot "N2O" (by decide), hn y hy1 hy2, hn ns le_rfl hnn]
    simp [ht']
  have e2 : overlapEffect sn (reportedConc g) t' ns y = overlapEffect sn (reportedConc g) (reportedConc g') ns y := by
    unfold overlapEffect
    rw [hot "N2O" (by decide), hot "N2O" (by decide), hot "CO2" (by decide), hot "CO2" (by decide), hn y hy1 hy2, hn ns le_rfl hnn,
      hco2 y hy1 hy2, hco2 ns le_rfl hnn]
    simp [ht']
  have hme := methane_nonneg (sm := sm) hm' hot (by linarith [N.n2o, N.ratio]) hy1 hy2
  have hsum := more_methane (sm := sm) (sn := sn) hm' hot N.n2o N.ratio hy1 hy2
  have hoz := ozone_nonneg (so := so) (qo := qo) (o0 := o0) hm N.ozone N.forcing N.first hy1 hy2
  rw [e1] at hme
  rw [e1, e2] at hsum
  refine ⟨fun k hN => ?_, by simpa [methaneReach] using hsum⟩
  unfold methaneReach
  rw [if_neg hN]
  split
  · exact hme
  · split
    · exact mul_nonneg N.water (mul_nonneg N.share hme)
    · split
      · exact hoz
      · exact le_rfl

end

/-- The weighted sum of the components when some of them move. -/
theorem weighted_moves {y : ℤ} {w δ : String → ℝ} {K : List String} : ∀ {l l' : List (String × (ℤ → Option ℝ))},
    List.Forall₂ (fun c c' => c'.1 = c.1 ∧ (c.1 ∈ K → ∃ v, c.2 y = some v ∧ c'.2 y = some (v + δ c.1)) ∧
      (c.1 ∉ K → c.1 ≠ "Total_forcing" → c'.2 y = c.2 y)) l l' → (∀ k ∉ K, δ k = 0) →
    ((l'.filter (fun c => c.1 ≠ "Total_forcing")).map (fun c => (c.2 y).getD 0 * w c.1)).sum =
      ((l.filter (fun c => c.1 ≠ "Total_forcing")).map (fun c => (c.2 y).getD 0 * w c.1)).sum
        + (((l.map Prod.fst).filter (fun k => k ≠ "Total_forcing")).map (fun k => δ k * w k)).sum := by
  intro l l' h hK
  induction h with
  | nil => simp
  | @cons x x' l l' hx _ ih =>
    obtain ⟨e, h1, h2⟩ := hx
    rw [List.map_cons]
    by_cases hT : x.1 = "Total_forcing"
    · rw [List.filter_cons_of_neg (a := x) (by simpa using hT), List.filter_cons_of_neg (a := x') (by simpa [e] using hT),
        List.filter_cons_of_neg (a := x.1) (by simpa using hT), ih]
    · rw [List.filter_cons_of_pos (a := x) (by simpa using hT), List.filter_cons_of_pos (a := x') (by simpa [e] using hT),
        List.filter_cons_of_pos (a := x.1) (by simpa using hT), List.map_cons,
        List.map_cons, List.map_cons, List.sum_cons, List.sum_cons, List.sum_cons, ih, e]
      by_cases q : x.1 ∈ K
      · obtain ⟨v, f1, f2⟩ := h1 q
        rw [f1, f2]
        simp only [Option.getD_some]
        ring
      · rw [h2 q hT, hK _ q]
        ring

section
variable {κ τ : Type} {cops cops' : CarbonOps ℝ κ} {i i' : Inputs ℝ} {pamset : Option (Dict (PyVal ℝ))} {ps : List (RunPams ℝ)}
  {p : RunPams ℝ} {luc : List ℝ} {ns es ne : ℤ} {g g' : Handler ℝ κ} {sm sn so sw qo qw : ℝ} {d0 d d1 d0' d' d1' : Driver ℝ κ}
  {t t' : τ} {tops : ThermalOps ℝ τ}

/-- The years of two runs, the second with more methane. -/
theorem emitted_yearsLe (R : Ran cops tops i pamset ps p luc ns es ne g) (R' : Ran cops' tops i' pamset ps p luc ns es ne g')
    (Q : RanPlain cops tops i p d0 d d1 t g) (Q' : RanPlain cops' tops i' p d0' d' d1' t' g')
    (hns : d0.nystart = ns) (hne : d0.nyend = ne) (hset : SameSetting d0 d0')
    (ho : OnlyEmissionsOf ["CH4"] i i') (hes : es < ne) (hpert : i.pertForc = none) (U : UsualGases i.gas)
    (M : MethaneRows i.gas sm sn so sw) (hqo : pamF g.pam "qo3" = .ok qo) (hqw : pamF g.pam "qh2o_ch4" = .ok qw)
    (hco2 : ∀ z, ns ≤ z → z ≤ ne → reportedConc g' "CO2" z = reportedConc g "CO2" z)
    (hm : MoreMethane (reportedConc g) (reportedConc g') ns ne)
    (N : MethaneScales sm sn so sw qo qw (reportedConc g "TROP_O3" ns))
    {ok : ℝ → Prop} (hok : ∀ w, ok w) {f f' : ℕ → YearForcing ℝ} {v v' : ℕ → Option (Dict ℝ)} (G : ForcedBy cops d d1 p f v)
    (G' : ForcedBy cops' d' d1' p f' v') : YearsLe d d' 0 ok f f' := by
  obtain ⟨hs, h, hh⟩ := Q.setting
  obtain ⟨hs', h', hh'⟩ := Q'.setting
  have S := Q.settled
  have S' := Q'.settled
  have e1 : d.nystart = ns := by rw [hs]; exact hns
  have e2 : d.nyend = ne := by rw [hs]; exact hne
  have e1' : d'.nystart = ns := by rw [hs']; exact hset.first.trans hns
  have e2' : d'.nyend = ne := by rw [hs']; exact hset.last.trans hne
  intro n hn vn vs vn' vs' x1 x2 x3 x4
  have hy1 : ns ≤ ns + (n : ℤ) := by omega
  have hy2 : ns + (n : ℤ) ≤ ne := by omega
  obtain ⟨sun, s1, s2, s3⟩ := forced_columns G hh Q.after (i := i) (by rw [e1, e2, ← hns, ← hne]; exact S) (n := n) (by omega)
  obtain ⟨sun', s1', s2', s3'⟩ := forced_columns G' hh' Q'.after (i := i')
    (by rw [e1', e2', ← hns, ← hne, ← hset.first, ← hset.last]; exact S') (n := n) (by omega)
  rw [hs] at s1 x1 x2
  rw [hs'] at s1' x3 x4
  have hsun : sun' = sun := by
    change d0'.sun[n]? = some sun' at s1'
    rw [hset.sun] at s1'
    exact (Option.some.inj (s1.symm.trans s1')).symm
  have hvn : vn' = vn := by
    change d0'.volcN[n]? = some vn' at x3
    rw [hset.north] at x3
    exact (Option.some.inj (x1.symm.trans x3)).symm
  have hvs : vs' = vs := by
    change d0'.volcS[n]? = some vs' at x4
    rw [hset.south] at x4
    exact (Option.some.inj (x2.symm.trans x4)).symm
  have hcol := C101_forcing R R' ho hes hpert U M hqo hqw hco2 hy1 hy2
  have nd := ran_nodup R U.notDirect
  obtain ⟨p1, p2⟩ := methane_not_negative R R' ho hes U hco2 hm N hy1 hy2
  have hin : ∀ k ∈ ["CH4", "N2O"], k ∈ (reportForcing g ns).map Prod.fst := by
    intro k hk
    obtain ⟨x, hx, -⟩ := M.main k (by
      simp only [List.mem_cons, List.not_mem_nil, or_false] at hk ⊢
      tauto)
    obtain ⟨c, hc, -, -, n1, -⟩ := reached R R' ho hes hpert U M hqo hqw hco2 hy1 hy2 (k := k) (by
      simp only [List.mem_cons, List.not_mem_nil, or_false] at hk ⊢
      tauto) ((get?_isSome_iff _ _).1 ⟨x, hx⟩)
    refine List.mem_map.2 ⟨c, hc, n1.trans ?_⟩
    simp only [List.mem_cons, List.not_mem_nil, or_false] at hk
    rcases hk with rfl | rfl <;> decide
  have same : ∀ l : List ℝ, List.Forall₂ (· ≤ ·) l l := fun l => List.forall₂_same.2 fun _ _ => le_rfl
  have cw : columnWeight "CH4" = 1 ∧ columnWeight "N2O" = 1 := by constructor <;> simp [columnWeight, nhWeight]
  have cr : ∀ c, 0 ≤ columnWeight c ∧ 0 ≤ 2 - columnWeight c := by
    intro c
    unfold columnWeight
    split
    · constructor <;> norm_num
    · exact nhWeight_range c
  have none' : ∀ k ∉ methaneNames, methaneReach sm sn so sw qo qw (reportedConc g "TROP_O3" ns) (reportedConc g) (reportedConc g')
      ns (ns + n) k = 0 := by
    intro k hk
    simp only [methaneNames, List.mem_cons, List.not_mem_nil, or_false, not_or] at hk
    unfold methaneReach
    rw [if_neg hk.1, if_neg hk.2.1, if_neg hk.2.2.1, if_neg hk.2.2.2]
  have weigh : ∀ w : String → ℝ, w "CH4" = 1 → w "N2O" = 1 → (∀ c, 0 ≤ w c) →
      ((componentColumns g ns).map (fun c => (c.2 (ns + n)).getD 0 * w c.1)).sum ≤
      ((componentColumns g' ns).map (fun c => (c.2 (ns + n)).getD 0 * w c.1)).sum := by
    intro w w1 w2 w0
    have := weighted_moves (w := w) hcol none'
    unfold componentColumns
    rw [this]
    refine le_add_of_nonneg_right ?_
    refine sum_reach (nd.filter _) (List.mem_filter.2 ⟨hin _ (by simp), by decide⟩)
      (List.mem_filter.2 ⟨hin _ (by simp), by decide⟩) (fun k _ hk => mul_nonneg (p1 k hk) (w0 k)) ?_
    rw [w1, w2, mul_one, mul_one]
    exact p2
  refine ⟨Or.inr rfl, hok _, ?_, ?_, hvn ▸ same _, hvs ▸ same _⟩
  · rw [s2, s2', e1, e1', hsun, ho.pertForc]
    exact add_le_add (add_le_add (weigh columnWeight cw.1 cw.2 (fun c => (cr c).1)) le_rfl) le_rfl
  · rw [s3, s3', e1, e1', hsun, ho.pertForc]
    exact add_le_add (add_le_add (weigh (fun c => 2 - columnWeight c) (by rw [cw.1]; norm_num) (by rw [cw.2]; norm_num)
      (fun c => (cr c).2)) le_rfl) le_rfl

end

section
variable {κ : Type} {cops cops' : CarbonOps ℝ κ} {i i' : Inputs ℝ} {pamset : Option (Dict (PyVal ℝ))} {ps : List (RunPams ℝ)}
  {p : RunPams ℝ} {luc : List ℝ} {ns es ne : ℤ} {g g' : Handler ℝ κ} {sm sn so sw qo qw : ℝ} {d0 d d1 d0' d' d1' : Driver ℝ κ}

/-- **C101**, two-layer model without a state dependent feedback. Two emission-driven runs whose inputs differ in the emissions of
methane only, with the same reported CO2: if the second reports no less methane in any year (`C97_methane_more`), it reports no
lower temperature and no smaller heat content in any year, although the forcing of N2O is smaller. -/
theorem C101_warms_two_layer {t t' : TwoLayer.Pams ℝ × TwoLayer.State ℝ}
    (R : Ran cops twoLayerOps i pamset ps p luc ns es ne g) (R' : Ran cops' twoLayerOps i' pamset ps p luc ns es ne g')
    (Q : RanPlain cops twoLayerOps i p d0 d d1 t g) (Q' : RanPlain cops' twoLayerOps i' p d0' d' d1' t' g')
    (hns : d0.nystart = ns) (hne : d0.nyend = ne) (hset : SameSetting d0 d0')
    (ho : OnlyEmissionsOf ["CH4"] i i') (hes : es < ne) (hpert : i.pertForc = none) (U : UsualGases i.gas)
    (M : MethaneRows i.gas sm sn so sw) (hqo : pamF g.pam "qo3" = .ok qo) (hqw : pamF g.pam "qh2o_ch4" = .ok qw)
    (hco2 : ∀ z, ns ≤ z → z ≤ ne → reportedConc g' "CO2" z = reportedConc g "CO2" z)
    (hm : MoreMethane (reportedConc g) (reportedConc g') ns ne)
    (N : MethaneScales sm sn so sw qo qw (reportedConc g "TROP_O3" ns))
    {q : TwoLayer.Pams ℝ} (hq : twoLayerPams (cutAndCheckPamset twoLayerRequired (p.udm.getD []) []) = .ok q)
    (hq0 : q.delta_lambda_aero = 0) (hsmall : SmallSteps q.mixed q.deep q.k q.ocean_efficacy q.lambda)
    (hf0 : 0 ≤ q.foan + q.foas) (hf2 : q.foan + q.foas ≤ 2) :
    ∀ o ∈ ["dT_glob", "dT_fast", "dT_slow", "OHC_MIXED", "OHC_DEEP", "OHC700", "OHCTOT"],
      ∀ n : ℕ, ns + n ≤ ne → EntryLe d1.results d1'.results o n := by
  obtain ⟨hs, -⟩ := Q.setting
  obtain ⟨hs', -⟩ := Q'.setting
  have e1 : d.nystart = ns := by rw [hs]; exact hns
  have e2 : d.nyend = ne := by rw [hs]; exact hne
  have e1' : d'.nystart = ns := by rw [hs']; exact hset.first.trans hns
  have e2' : d'.nyend = ne := by rw [hs']; exact hset.last.trans hne
  have key := order_two_layer Q.ran Q'.ran rfl hq hf0 hf2 (by rw [e1, e1']) (by rw [e2, e2']) (by
    intro f f' v v' G G'
    rw [hq0]
    exact emitted_yearsLe R R' Q Q' hns hne hset ho hes hpert U M hqo hqw hco2 hm N
      (by intro w; rw [mul_zero, add_zero]; exact hsmall) G G')
  rw [e1', e2'] at key
  exact key

/-- **C101**, diffusion model with constant upwelling in the physical range and without a state dependent feedback. -/
theorem C101_warms_diffusion {solve : UDM.Solver ℝ} (hsol : Exact solve) {t t' : UDM.Model ℝ}
    (R : Ran cops (udmOps solve) i pamset ps p luc ns es ne g) (R' : Ran cops' (udmOps solve) i' pamset ps p luc ns es ne g')
    (Q : RanPlain cops (udmOps solve) i p d0 d d1 t g) (Q' : RanPlain cops' (udmOps solve) i' p d0' d' d1' t' g')
    (hns : d0.nystart = ns) (hne : d0.nyend = ne) (hset : SameSetting d0 d0')
    (ho : OnlyEmissionsOf ["CH4"] i i') (hes : es < ne) (hpert : i.pertForc = none) (U : UsualGases i.gas)
    (M : MethaneRows i.gas sm sn so sw) (hqo : pamF g.pam "qo3" = .ok qo) (hqw : pamF g.pam "qh2o_ch4" = .ok qw)
    (hco2 : ∀ z, ns ≤ z → z ≤ ne → reportedConc g' "CO2" z = reportedConc g "CO2" z)
    (hm : MoreMethane (reportedConc g) (reportedConc g') ns ne)
    (N : MethaneScales sm sn so sw qo qw (reportedConc g "TROP_O3" ns))
    {q : UDM.Pams ℝ} (hq : udmPams (cutAndCheckPamset udmRequired (p.udm.getD []) []) = .ok q) (hph : Physical q)
    (hth : q.threstemp = 0) (hord : Ordered q q.W) (hg : Gentle q q.W) (hn1 : q.foan ≤ 1) (hs1 : q.foas ≤ 1)
    (h700 : q.mixed ≤ 700) (hq0 : q.delta_lambda_aero = 0) (hfb : 0 < q.lambda) :
    ∀ o ∈ ["dT_glob", "dT_NH", "dT_SH", "dT_glob_air", "dT_NH_air", "dT_SH_air", "dT_glob_sea", "dT_NH_sea", "dT_SHsea",
        "OHC700", "OHCTOT"],
      ∀ n : ℕ, ns + n ≤ ne → EntryLe d1.results d1'.results o n := by
  obtain ⟨hs, -⟩ := Q.setting
  obtain ⟨hs', -⟩ := Q'.setting
  have e1 : d.nystart = ns := by rw [hs]; exact hns
  have e2 : d.nyend = ne := by rw [hs]; exact hne
  have e1' : d'.nystart = ns := by rw [hs']; exact hset.first.trans hns
  have e2' : d'.nyend = ne := by rw [hs']; exact hset.last.trans hne
  have key := order_diffusion hsol Q.ran Q'.ran rfl hq hph hth hord hg hn1 hs1 h700 (by rw [e1, e1']) (by rw [e2, e2']) (by
    intro f f' v v' G G'
    rw [hq0]
    exact emitted_yearsLe R R' Q Q' hns hne hset ho hes hpert U M hqo hqw hco2 hm N
      (by intro w; simpa [feedback, hq0] using hfb) G G')
  rw [e1', e2'] at key
  exact key

end

/-! ## The same CO2 -/

/-- One year of the box carbon cycle without temperature effects. -/
theorem box_no_temperature {P : Box.Pams ℝ} (hl : P.land_temp_sensitivity = 0) (ht : P.ocean_solubility_temp_coeff = 0)
    (s : Box.State ℝ) (e : ℝ) (T T' : Option ℝ) : Box.co2em2conc P s e T = Box.co2em2conc P s e T' := by
  simp [Box.co2em2conc, Box.calculateNpp, Box.calculateOceanUptake, hl, ht]

/-- **C101**, CO2: with the box carbon cycle without temperature effects, two emission-driven runs of any inputs, parameters,
histories and thermal models with the same carbon cycle parameters and the same CO2 emissions report the same CO2. -/
theorem C101_box_co2 {τ τ' : Type} {tops : ThermalOps ℝ τ} {tops' : ThermalOps ℝ τ'} {i i' : Inputs ℝ}
    {pamset pamset' : Option (Dict (PyVal ℝ))} {ps ps' : List (RunPams ℝ)} {p p' : RunPams ℝ} {luc luc' : List ℝ}
    {ns es es' ne : ℤ} {g g' : Handler ℝ (BoxM ℝ)} (R : Ran boxOps tops i pamset ps p luc ns es ne g)
    (R' : Ran boxOps tops' i' pamset' ps' p' luc' ns es' ne g')
    (hout : (tops.outputs.map Prod.fst ++ forcOutputList).Nodup) (hout' : (tops'.outputs.map Prod.fst ++ forcOutputList).Nodup)
    {P : Box.Pams ℝ} (hP : boxPams g.carbon = .ok P) (hP' : boxPams g'.carbon = .ok P)
    (hl : P.land_temp_sensitivity = 0) (ht : P.ocean_solubility_temp_coeff = 0) {x x' : Gas ℝ} (hx : i.gas.get? "CO2" = some x)
    (hx' : i'.gas.get? "CO2" = some x')
    (he : ∀ y, ns ≤ y → y ≤ ne → usedEmis i' "CO2_FF" y + usedEmis i' "CO2_AFOLU" y + x'.natEm
      = usedEmis i "CO2_FF" y + usedEmis i "CO2_AFOLU" y + x.natEm) :
    ∀ y, ns ≤ y → y ≤ ne → ∃ v, concOf g "CO2" y = some v ∧ concOf g' "CO2" y = some v := by
  obtain ⟨P1, E, T, q1, e1, c1⟩ := ran_box R hout hx
  obtain ⟨P2, E', T', q2, e2, c2⟩ := ran_box R' hout' hx'
  rw [hP, Except.ok.injEq] at q1
  rw [hP', Except.ok.injEq] at q2
  subst q1
  subst q2
  have key : ∀ n : ℕ, ns + n ≤ ne + 1 → boxAlone P E' T' n = boxAlone P E T n := by
    intro n
    induction n with
    | zero => intro _; rfl
    | succ n ih =>
      intro hn
      rw [boxAlone_succ, boxAlone_succ, ih (by omega), e2 n (by omega), he _ (by omega) (by omega), ← e1 n (by omega)]
      exact box_no_temperature hl ht _ _ _ _
  intro y h1 h2
  obtain ⟨n, rfl⟩ : ∃ n : ℕ, y = ns + n := ⟨(y - ns).toNat, by omega⟩
  exact ⟨_, c1 n h2, by rw [c2 n h2, key (n + 1) (by push_cast; omega)]⟩

/-! ## The hypotheses are met -/

section
open Verif.Exec Verif.Lemmas.Tridiag
variable {τ : Type}

/-- `s` more methane per year. -/
noncomputable def emitted (s : ℝ) : Inputs ℝ := emisInputs (fun c => if c = "CH4" then s else 0)

noncomputable def emittedRun (udm : Option (Dict (PyVal ℝ))) : RunPams ℝ :=
  ⟨udm, some [("lifetime_mode", .str "WIGLEY")], some calmSet⟩

/-- A run with everything the theorems ask for. -/
structure EmittedRan (tops : ThermalOps ℝ τ) (udm : Option (Dict (PyVal ℝ))) (s : ℝ) (ps : List (RunPams ℝ))
    (h0 : Handler ℝ (BoxM ℝ)) (d d1 : Driver ℝ (BoxM ℝ)) (t : τ) (g : Handler ℝ (BoxM ℝ)) : Prop where
  ran : Ran boxOps tops (emitted s) richPam ps (emittedRun udm) [2, 3, 3, 3, 3, 3] 1998 2000 2003 g
  plain : RanPlain boxOps tops (emitted s) (emittedRun udm) (richDriver h0) d d1 t g
  pams : boxPams g.carbon = .ok calmPams
  mode : g.pam.get? "lifetime_mode" = some (.str "WIGLEY")
  ozone : pamF g.pam "qo3" = .ok 0.5
  water : pamF g.pam "qh2o_ch4" = .ok 0.091915
  ref : pamI g.pam "ref_yr" = .ok 2010

theorem emitted_ran {tops : ThermalOps ℝ τ} (hout : (tops.outputs.map Prod.fst ++ forcOutputList).Nodup)
    {udm : Option (Dict (PyVal ℝ))} {s : ℝ} {ps : List (RunPams ℝ)} {h0 : Handler ℝ (BoxM ℝ)} {d d1 : Driver ℝ (BoxM ℝ)} {t : τ}
    (hc : construct boxOps (emitted s) richPam none = .ok h0) (ha : After boxOps tops (richDriver h0) ps d)
    (hr : run boxOps tops d (emittedRun udm) = .ok (d1, t)) (hj : ∀ q ∈ ps, "just_one" ∉ (q.emiconc.getD []).keys) :
    ∃ g, EmittedRan tops udm s ps h0 d d1 t g := by
  obtain ⟨p1, p2, p3, -⟩ := rich_pams
  obtain ⟨h, hd, -⟩ := after_spec yearLaw_real (rfl : (richDriver h0).source = .handler h0) ha (fun _ => True)
      trivial (fun _ _ _ _ _ _ _ => trivial) (fun _ _ _ _ _ _ => trivial)
  obtain ⟨g0, g, hre, hg, S, -⟩ := run_handler_spec hd hr
  have ht := (emis_tables (fun c => if c = "CH4" then s else 0)).run p1 p2 p3
  have hx : (emitted s).gas.get? "CO2" = some ⟨"ppm", 1, 2, 1, 0, 0, 0, 1⟩ := rfl
  rw [show (emittedRun udm).emiconc = some [("lifetime_mode", .str "WIGLEY")] from rfl] at hre
  have pam : ∀ k v, k ∉ globalAerosols.map Prod.snd → k ∉ pamsCantChange →
      (Factory.checkPamset (F := ℝ) (some [("lifetime_mode", .str "WIGLEY")])).get? k = some v → g.pam.get? k = some v := by
    intro k v a b e
    obtain ⟨pam, c, h1, -, rfl⟩ := reset_spec hre
    rw [S.pam]
    simp only
    rw [avoid_get? _ _ _ a, consistency_get? h1, if_neg b, e]
    rfl
  refine ⟨g, ⟨rich_gases, rfl, ht, (emis_tables _).concCols, none, h0, richDriver h0, d, d1, t, hc, rfl, rfl, rfl, rfl, ha, hr, hg⟩,
    ⟨rich_gases.once, rich_gases.notTotal, ?_, ?_, hr, hg, richPam, none, 2000, ps, h0, ht, hc, rfl, ha, by decide, ?_⟩,
    calm_pams ht hc ha hr hg hout rich_gases.once rfl hx (by decide), pam _ _ (by decide) (by decide) rfl, ?_, ?_, ?_⟩
  · simp [emitted, emisInputs, richInputs, richGas, Dict.keys]
  · intro k x hx hu
    have := rich_conc ⟨x, hx, hu⟩
    simp only [List.mem_cons, List.not_mem_nil, or_false] at this
    rcases this with rfl | rfl | rfl | rfl <;> simp [nhWeight]
  · intro q hq
    rcases List.mem_append.1 hq with hq | hq
    · exact hj q hq
    · rw [List.mem_singleton] at hq
      subst hq
      simp [Dict.keys, emittedRun]
  · unfold pamF Dict.getE
    rw [pam "qo3" (.flt 0.5) (by decide) (by decide) rfl]
    rfl
  · unfold pamF Dict.getE
    rw [pam "qh2o_ch4" (.flt 0.091915) (by decide) (by decide) rfl]
    rfl
  · unfold pamI Dict.getE
    rw [pam "ref_yr" (.int 2010) (by decide) (by decide) rfl]
    rfl

/-- The third of three runs, two-layer model. -/
theorem emitted_case (s : ℝ) : ∃ h0 d d1 t g, EmittedRan twoLayerOps none s (richRuns.take 2) h0 d d1 t g := by
  obtain ⟨h1, h2, h3, -, h5⟩ := rich_pams
  obtain ⟨h0, hc, h⟩ := C63_box (carb := none) yearLaw_real (i := emitted s) rich_gases (emis_tables _) h1 h2 h3
    (.absent (by decide))
  obtain ⟨d1, hd⟩ := h (richDriver h0) (richRuns.take 2 ++ [emittedRun none]) rfl rfl rfl (rich_series h0) (by
    intro p hp
    simp only [richRuns, List.take, List.cons_append, List.nil_append, List.mem_cons, List.not_mem_nil, or_false] at hp
    rcases hp with rfl | rfl | rfl
    · exact ⟨h5, .absent (by decide)⟩
    · exact ⟨rfl, .absent (by simp [Dict.keys])⟩
    · exact ⟨rfl, .absent (by simp [Dict.keys, emittedRun])⟩)
  obtain ⟨d, t, ha, hr⟩ := after_snoc hd
  obtain ⟨g, hg⟩ := emitted_ran twoLayer_names hc ha hr (by
    intro q hq
    simp only [richRuns, List.take, List.mem_cons, List.not_mem_nil, or_false] at hq
    rcases hq with rfl | rfl <;> simp [Dict.keys])
  exact ⟨h0, d, d1, t, g, hg⟩

/-- A run with the diffusion model. -/
theorem emitted_diffusion (s : ℝ) : ∃ h0 d d1 t g, EmittedRan (udmOps exactSolver) (some flatSet) s [] h0 d d1 t g := by
  obtain ⟨h1, h2, h3, -, h5⟩ := rich_pams
  obtain ⟨h0, hc, h⟩ := C63_completes (tops := udmOps exactSolver) (carb := none) yearLaw_real (i := emitted s) rich_gases
    (emis_tables _) h1 h2 h3 (.absent (by decide)) (box_creates _ _) (box_resets _) (box_works 1998 2003)
  obtain ⟨d1, hd⟩ := h (richDriver h0) ([] ++ [emittedRun (some flatSet)]) rfl rfl rfl (rich_series h0) (by
    intro p hp
    simp only [List.nil_append, List.mem_singleton] at hp
    subst hp
    exact ⟨udm_works exactSolver_exact flat_set flat_safe, box_resets _, rfl, .absent (by simp [Dict.keys, emittedRun])⟩)
  obtain ⟨d, t, ha, hr⟩ := after_snoc hd
  obtain ⟨g, hg⟩ := emitted_ran udm_names hc ha hr (by simp)
  exact ⟨h0, d, d1, t, g, hg⟩

theorem emitted_only (s s' : ℝ) : OnlyEmissionsOf ["CH4"] (emitted s) (emitted s') := by
  refine emis_only ?_
  intro c hc
  rw [List.mem_singleton] at hc
  simp [hc]

theorem emitted_usual (s : ℝ) : UsualGases (emitted s).gas := later_usual 0

theorem emitted_rows (s : ℝ) : MethaneRows (emitted s).gas 1 1 1 1 := methane_rows 0

theorem emitted_total (s : ℝ) (y : ℤ) : totalEmis (emitted s) "CH4" y = ((y - 1990 : ℤ) : ℝ) + s + 200 := by
  unfold totalEmis
  rw [show emitted s = emisInputs (fun c => if c = "CH4" then s else 0) from rfl, emis_used _ (by decide)]
  simp [emisInputs, richInputs]

/-- The reported methane of a run stays below 1000 ppb. -/
theorem emitted_top {tops : ThermalOps ℝ τ} {udm : Option (Dict (PyVal ℝ))} {s : ℝ} {ps : List (RunPams ℝ)}
    {h0 g : Handler ℝ (BoxM ℝ)} {d d1 : Driver ℝ (BoxM ℝ)} {t : τ} (s0 : 0 ≤ s) (s1 : s ≤ 100)
    (L : EmittedRan tops udm s ps h0 d d1 t g) : ∀ y, 1998 ≤ y → y ≤ 2003 → 0 < reportedConc g "CH4" y ∧
      reportedConc g "CH4" y ≤ 305 + 160 * ((y - 1998 : ℤ) : ℝ) := by
  obtain ⟨v, hv, s1', s2⟩ := methane_series L.ran (by decide) (x := ⟨"ppb", 1, 2, 10, 120, 160, 0, 1⟩) rfl (by decide)
  intro y h1 h2
  unfold reportedConc
  rw [hv y h1 h2, Option.getD_some]
  refine years_induction (P := fun y => 0 < v y ∧ v y ≤ 305 + 160 * ((y - 1998 : ℤ) : ℝ)) (show (1998 : ℤ) < 2000 by decide)
    ?_ ?_ y h1 h2
  · intro z a1 a2 a3
    rw [s1' z a1 a2 a3]
    have b1 : (1998 : ℝ) ≤ z := by exact_mod_cast a1
    have b2 : (z : ℝ) < 2000 := by exact_mod_cast a2
    simp only [emitted, emisInputs, richInputs]
    push_cast
    constructor <;> linarith
  · rintro z a1 a2 ⟨i1, i2⟩
    obtain ⟨mode, hm, e⟩ := s2 z a1 a2
    rw [L.mode, Option.some.injEq] at hm
    have hq : 0 < methaneRate mode (⟨"ppb", 1, 2, 10, 120, 160, 0, 1⟩ : Gas ℝ) (usedEmis (emitted s)) (v (z - 1)) z :=
      methaneRate_pos (by rw [← hm]; simp) (by norm_num) (by norm_num) (by norm_num) i1
    rw [emitted_total] at e
    generalize methaneRate mode (⟨"ppb", 1, 2, 10, 120, 160, 0, 1⟩ : Gas ℝ) (usedEmis (emitted s)) (v (z - 1)) z = q at *
    have b1 : (2000 : ℝ) ≤ z := by exact_mod_cast a1
    have b2 : (z : ℝ) ≤ 2003 := by exact_mod_cast a2
    refine ⟨by rw [e]; exact concUpdate_pos (by norm_num) hq (by push_cast; linarith) i1, ?_⟩
    rw [e, concUpdate_form hq]
    have x1 : Real.exp (-q) ≤ 1 := Real.exp_le_one_iff.2 (by linarith)
    have x2 : (1 - Real.exp (-q)) / q ≤ 1 := by
      rw [div_le_one hq]
      linarith [Real.add_one_le_exp (-q)]
    have x3 : 0 ≤ (1 - Real.exp (-q)) / q := div_nonneg (by linarith) hq.le
    generalize (1 - Real.exp (-q)) / q = r at *
    push_cast at *
    nlinarith [mul_le_mul_of_nonneg_left x1 i1.le]

/-- What the runs report is in the range of the theorems. -/
theorem emitted_more {tops : ThermalOps ℝ τ} {udm : Option (Dict (PyVal ℝ))} {ps : List (RunPams ℝ)}
    {h0 h0' g g' : Handler ℝ (BoxM ℝ)} {d d1 d' d1' : Driver ℝ (BoxM ℝ)}
    {t t' : τ} (L : EmittedRan tops udm 0 ps h0 d d1 t g) (L' : EmittedRan tops udm 100 ps h0' d' d1' t' g') :
    MoreMethane (reportedConc g) (reportedConc g') 1998 2003 := by
  have r := emitted_top le_rfl (by norm_num) L
  have r' := emitted_top (by norm_num) le_rfl L'
  refine ⟨same_start L.ran L'.ran (emitted_only 0 100) (by decide), ?_, fun y h1 h2 => (r y h1 h2).1, ?_, ?_⟩
  · intro y h1 h2
    obtain ⟨v, v', e, e', -, h⟩ := C97_methane_more L.ran L'.ran (by norm_num) (x := ⟨"ppb", 1, 2, 10, 120, 160, 0, 1⟩) rfl rfl
      (by decide) (by decide) (by norm_num) (by norm_num) rfl ⟨rfl, rfl, rfl⟩ (by rw [L.mode, L'.mode]) (by
        intro c hc y
        have h1 : c ≠ "CO2_FF" ∧ c ≠ "CH4" := by
          simp only [List.mem_cons, List.not_mem_nil, or_false] at hc
          rcases hc with rfl | rfl | rfl <;> decide
        rw [emitted, emitted, emis_used _ h1.1, emis_used _ h1.1]
        simp [h1.2]) (by
        intro y a b
        refine ⟨?_, le_rfl⟩
        have : (0 : ℝ) ≤ ((y - 1995 : ℤ) : ℝ) := by norm_cast; omega
        simp only [emitted, emisInputs, richInputs]
        linarith) (by
        intro y a b
        have : (0 : ℝ) ≤ ((y - 1990 : ℤ) : ℝ) := by norm_cast; omega
        rw [emitted_total, emitted_total]
        constructor <;> linarith) (by
        intro mode y c hmo _ _ _ hc
        rw [L'.mode, Option.some.injEq] at hmo
        exact methaneRate_pos (by rw [← hmo]; simp) (by norm_num) (by norm_num) (by norm_num) hc) y h1 h2
    unfold reportedConc
    rw [e, e']
    exact h
  · intro y h1 h2
    have := (r' y h1 h2).2
    have b2 : (y : ℝ) ≤ 2003 := by exact_mod_cast h2
    push_cast at this
    linarith
  · intro y h1 h2
    obtain ⟨v, hv, ⟨D1, D2⟩⟩ := own_series L.ran (k := "N2O") (x := ⟨"ppb", 1, 4, 120, 0, 0, 0, 1⟩) (by decide) rfl (by decide)
      (by decide) (by decide) (by norm_num)
    unfold reportedConc
    rw [hv y h1 h2]
    refine years_induction (P := fun y => 0 ≤ (some (v y)).getD 0 ∧ (some (v y)).getD 0 ≤ 1000) (show (1998 : ℤ) < 2000 by decide)
      ?_ ?_ y h1 h2
    · intro z a1 a2 a3
      simp only [Option.getD_some]
      rw [D1 z a1 a2 a3]
      have b1 : (1998 : ℝ) ≤ z := by exact_mod_cast a1
      have b2 : (z : ℝ) < 2000 := by exact_mod_cast a2
      simp only [emitted, emisInputs, richInputs]
      push_cast
      constructor <;> linarith
    · intro z a1 a2 ih
      simp only [Option.getD_some] at ih ⊢
      obtain ⟨k1, k2⟩ := C13_between (by norm_num) (D2 z a1 a2)
      have hem : totalEmis (emitted 0) "N2O" z = ((z - 1990 : ℤ) : ℝ) + 10 := by
        simp [totalEmis, usedEmis, emitted, emisInputs, richInputs, emissionTarget]
      rw [hem] at k1 k2
      have b1 : (2000 : ℝ) ≤ z := by exact_mod_cast a1
      have b2 : (z : ℝ) ≤ 2003 := by exact_mod_cast a2
      push_cast at k1 k2
      constructor
      · exact le_trans (le_min ih.1 (by apply div_nonneg <;> norm_num; linarith)) k1
      · refine le_trans k2 (max_le ih.2 ?_)
        rw [div_le_iff₀ (by norm_num), div_le_iff₀ (by norm_num)]
        norm_num
        linarith

/-- The CO2 is the same. -/
theorem emitted_co2 {tops : ThermalOps ℝ τ} (hout : (tops.outputs.map Prod.fst ++ forcOutputList).Nodup)
    {udm : Option (Dict (PyVal ℝ))} {s s' : ℝ} {ps : List (RunPams ℝ)}
    {h0 h0' g g' : Handler ℝ (BoxM ℝ)} {d d1 d' d1' : Driver ℝ (BoxM ℝ)}
    {t t' : τ} (L : EmittedRan tops udm s ps h0 d d1 t g) (L' : EmittedRan tops udm s' ps h0' d' d1' t' g') :
    ∀ z, 1998 ≤ z → z ≤ 2003 → reportedConc g' "CO2" z = reportedConc g "CO2" z := by
  intro z h1 h2
  obtain ⟨v, e, e'⟩ := C101_box_co2 L.ran L'.ran hout hout L.pams L'.pams rfl rfl
    (x := ⟨"ppm", 1, 2, 1, 0, 0, 0, 1⟩) (x' := ⟨"ppm", 1, 2, 1, 0, 0, 0, 1⟩) rfl rfl
    (by intro y _ _; simp [usedEmis, emitted, emisInputs, richInputs]) z h1 h2
  unfold reportedConc
  rw [e, e']

/-- Less than 30 DU of ozone in 1998. -/
theorem emitted_first {tops : ThermalOps ℝ τ} {udm : Option (Dict (PyVal ℝ))} {s : ℝ} {ps : List (RunPams ℝ)}
    {h0 g : Handler ℝ (BoxM ℝ)} {d d1 : Driver ℝ (BoxM ℝ)} {t : τ} (L : EmittedRan tops udm s ps h0 d d1 t g) :
    reportedConc g "TROP_O3" 1998 ≤ 30 := by
  obtain ⟨emis, ref, m0, e1, e2, e3, e4⟩ := ran_ozone L.ran (x := ⟨"-", 0, 0, 0, 0, 0, 0, 1⟩) rfl rfl rfl
    (le_refl (1998 : ℤ)) (by decide)
  rw [L.ref, Except.ok.injEq] at e2
  subst e2
  have hm0 : m0 = 315 := by
    rw [frame_at'_eq_ok] at e3
    rw [← e3.2.2]
    norm_num [emitted, emisInputs, richInputs]
  obtain ⟨a1, a2, a3⟩ := perturbedEmis_spec e1
  have em : ∀ k ∈ ["NOx", "CO", "NMVOC"], ∀ z : ℤ, 1995 ≤ z → z < 2012 →
      (obs g (emitted s) emis 0 1998 1998).emis k z = ((z - 1990 : ℤ) : ℝ) := by
    intro k hk z z1 z2
    have hz : z ∈ (emitted s).emis.idx := by
      simp only [emitted, emisInputs, richInputs, mem_pyRange]; omega
    have : emis.at' k z = .ok ((z - 1990 : ℤ) : ℝ) := by
      rw [frame_at'_eq_ok, a1, a2]
      have hk' : k ≠ "CO2_FF" ∧ k ≠ "CH4" := by
        simp only [List.mem_cons, List.not_mem_nil, or_false] at hk
        rcases hk with rfl | rfl | rfl <;> decide
      refine ⟨?_, hz, ?_⟩
      · simp only [List.mem_cons, List.not_mem_nil, or_false] at hk
        rcases hk with rfl | rfl | rfl <;> simp [emitted, emisInputs, richInputs]
      · rw [a3 k z hz, emitted, emis_used _ hk'.1]
        simp [hk'.2]
    simp only [obs, this]
  have hch : (obs g (emitted s) emis 0 1998 1998).conc "CH4" 1998 = 303 := by
    obtain ⟨v, hv, s1, -⟩ := methane_series L.ran (by decide) (x := ⟨"ppb", 1, 2, 10, 120, 160, 0, 1⟩) rfl (by decide)
    simp only [obs]
    rw [hv 1998 le_rfl (by decide), s1 1998 le_rfl (by decide) (by decide)]
    norm_num [emitted, emisInputs, richInputs]
  rw [e4]
  unfold ForcingData.ozoneConc
  rw [show (obs g (emitted s) emis 0 1998 1998).year = 1998 from rfl, hch, hm0,
    em "NOx" (by simp) _ (by decide) (by decide), em "NOx" (by simp) _ (by decide) (by decide),
    em "CO" (by simp) _ (by decide) (by decide), em "CO" (by simp) _ (by decide) (by decide),
    em "NMVOC" (by simp) _ (by decide) (by decide), em "NMVOC" (by simp) _ (by decide) (by decide)]
  have : Real.log 303 ≤ Real.log 315 := Real.log_le_log (by norm_num) (by norm_num)
  norm_num
  linarith

/-- `C101_forcing` and `C101_warms_two_layer`: the third of three runs in a row, with 100 Tg more methane per year. -/
example : ∃ (h0 h0' : Handler ℝ (BoxM ℝ)) (d d' d1 d1' : Driver ℝ (BoxM ℝ)) (t t' : TwoLayer.Pams ℝ × TwoLayer.State ℝ)
    (g g' : Handler ℝ (BoxM ℝ)), EmittedRan twoLayerOps none 0 (richRuns.take 2) h0 d d1 t g ∧
    EmittedRan twoLayerOps none 100 (richRuns.take 2) h0' d' d1' t' g' ∧
    reportedConc g "CH4" 2001 ≤ reportedConc g' "CH4" 2001 ∧ (reportForcing g' 1998).length = (reportForcing g 1998).length ∧
    EntryLe d1.results d1'.results "dT_glob" 5 := by
  obtain ⟨h0, d, d1, t, g, L⟩ := emitted_case 0
  obtain ⟨h0', d', d1', t', g', L'⟩ := emitted_case 100
  have hm := emitted_more L L'
  have hc := emitted_co2 twoLayer_names L L'
  refine ⟨h0, h0', d, d', d1, d1', t, t', g, g', L, L', hm.more _ (by decide) (by decide), ?_, ?_⟩
  · exact (C101_forcing L.ran L'.ran (emitted_only 0 100) (by decide) rfl (emitted_usual 0) (emitted_rows 0) L.ozone L.water hc
      (y := 2002) (by decide) (by decide)).length_eq.symm
  · exact C101_warms_two_layer L.ran L'.ran L.plain L'.plain rfl rfl (later_setting _ _) (emitted_only 0 100) (by decide) rfl
      (emitted_usual 0) (emitted_rows 0) L.ozone L.water hc hm (methane_scales (emitted_first L))
      (show twoLayerPams (cutAndCheckPamset (twoLayerRequired (F := ℝ)) [] []) = .ok TwoLayer.Pams.default by
        have e : twoLayerPams (cutAndCheckPamset (twoLayerRequired (F := ℝ)) [] []) =
          .ok ⟨3.74 / 3.0, ofInt 50, ofInt 1200, 0.5, ofInt 1, 0.61, 0.81, 0.0⟩ := rfl
        rw [e]
        norm_num [TwoLayer.Pams.default])
      (by norm_num [TwoLayer.Pams.default]) (by constructor <;> norm_num [TwoLayer.Pams.default])
      (by norm_num [TwoLayer.Pams.default]) (by norm_num [TwoLayer.Pams.default]) "dT_glob" (by simp) 5 (by decide)

/-- `C101_warms_diffusion`: the same with the diffusion model. -/
example : ∃ (h0 h0' : Handler ℝ (BoxM ℝ)) (d d' d1 d1' : Driver ℝ (BoxM ℝ)) (t t' : UDM.Model ℝ) (g g' : Handler ℝ (BoxM ℝ)),
    EmittedRan (udmOps exactSolver) (some flatSet) 0 [] h0 d d1 t g ∧
    EmittedRan (udmOps exactSolver) (some flatSet) 100 [] h0' d' d1' t' g' ∧ EntryLe d1.results d1'.results "dT_NH_sea" 4 := by
  obtain ⟨h0, d, d1, t, g, L⟩ := emitted_diffusion 0
  obtain ⟨h0', d', d1', t', g', L'⟩ := emitted_diffusion 100
  exact ⟨h0, h0', d, d', d1, d1', t, t', g, g', L, L', C101_warms_diffusion exactSolver_exact L.ran L'.ran L.plain L'.plain rfl rfl
    (later_setting _ _) (emitted_only 0 100) (by decide) rfl (emitted_usual 0) (emitted_rows 0) L.ozone L.water
    (emitted_co2 udm_names L L') (emitted_more L L') (methane_scales (emitted_first L)) flat_set C35.flat_physical rfl C35.flat_ordered
    C35.flat_gentle
    (by simp only [C35.flatPams]; norm_num) (by simp only [C35.flatPams]; norm_num) (by simp only [C35.flatPams]; norm_num)
    (by simp only [C35.flatPams]) (by simp only [C35.flatPams]; norm_num) "dT_NH_sea" (by simp) 4 (by decide)⟩

end

end Verif.Props
