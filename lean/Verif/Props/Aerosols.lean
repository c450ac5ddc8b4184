import Verif.Props.C06_run
import Verif.Props.C55
import Verif.Props.C62

/-!
# C55, second half: regional aerosol rows in a run

Regional rows (`SO2_<region>` and so on) get their own forcing, and the global row of the same aerosol
then contributes nothing, if its efficiency in the gas table is zero. With a non-zero efficiency the
global row still counts (`C55_efficiency_false`).
-/

namespace Verif.Props
open Verif.Py Verif.Py.Dict Verif.Model Verif.Model.Handler Verif.Model.Driver Verif.Spec

section
variable {κ τ : Type}

/-- The aerosols that can be given by region. -/
def regionalAerosols : List String := ["SO2", "BC", "OC"]

theorem avoid_zero {gases : List String} {pam : Dict (PyVal ℝ)} {k q region : String}
    (hk : (k, q) ∈ globalAerosols) (hreg : regionalName k region ∈ gases) :
    (avoidRegionalDoubleCounting gases pam).get? q = some (.flt 0) := by
  have hany : gases.any (fun comp => (k ++ "_").toList.isPrefixOf comp.toList) = true := by
    rw [List.any_eq_true]
    refine ⟨_, hreg, ?_⟩
    rw [List.isPrefixOf_iff_prefix]
    refine ⟨region.toList, ?_⟩
    simp [regionalName, String.toList_append]
  unfold avoidRegionalDoubleCounting globalAerosols
  simp only [globalAerosols, List.mem_cons, List.not_mem_nil, or_false, Prod.mk.injEq] at hk
  simp only [List.foldl_cons, List.foldl_nil]
  rcases hk with ⟨rfl, rfl⟩ | ⟨rfl, rfl⟩ | ⟨rfl, rfl⟩
  · rw [if_pos hany]
    split <;> split <;> simp [Dict.get?_set] <;> norm_num
  · rw [if_pos hany]
    split <;> simp [Dict.get?_set] <;> norm_num
  · rw [if_pos hany]
    simp [Dict.get?_set]
    norm_num

/-- The aerosol names are aerosols, also with a region. -/
theorem regional_isAerosol {k region : String} (hk : k ∈ regionalAerosols) :
    IsAerosol k ∧ IsAerosol (regionalName k region) := by
  have h : ∃ p ∈ ["BC", "OC", "SO", "BM"], p.toList <+: k.toList := by
    simp only [regionalAerosols, List.mem_cons, List.not_mem_nil, or_false] at hk
    rcases hk with rfl | rfl | rfl
    · exact ⟨"SO", by simp, ⟨['2'], rfl⟩⟩
    · exact ⟨"BC", by simp, ⟨[], rfl⟩⟩
    · exact ⟨"OC", by simp, ⟨[], rfl⟩⟩
  refine ⟨Or.inr (Or.inr (Or.inr h)), Or.inr (Or.inr (Or.inr ?_))⟩
  obtain ⟨p, hp, s, hs⟩ := h
  refine ⟨p, hp, s ++ '_' :: region.toList, ?_⟩
  simp [regionalName, String.toList_append, ← hs]

theorem regionalName_ne {k region : String} (hk : k ∈ regionalAerosols) :
    regionalName k region ≠ "STRAT_O3" ∧ regionalName k region ≠ "CO2.1" ∧ regionalName k region ≠ "SO2" := by
  simp only [regionalAerosols, List.mem_cons, List.not_mem_nil, or_false] at hk
  refine ⟨fun h => ?_, fun h => ?_, fun h => ?_⟩ <;> have := congrArg String.toList h <;>
    rcases hk with rfl | rfl | rfl <;> simp [regionalName, String.toList_append] at this

theorem forcing_of_aerosol (D : ForcingData) {k : String} (ha : IsAerosol k) : D.forcing k = D.aerosol k := by
  have hn : ∀ t ∈ ["CO2", "N2O", "CH4", "LANDUSE"], ¬ IsAerosol t := by
    intro t ht h
    have h' := (isAerosol_iff t).2 h
    have : ∀ t ∈ ["CO2", "N2O", "CH4", "LANDUSE"], isAerosol t = false := by decide +kernel
    rw [this t ht] at h'
    cases h'
  have h1 : k ≠ "CO2" := by rintro rfl; exact hn _ (by simp) ha
  have h2 : k ≠ "CH4" := by rintro rfl; exact hn _ (by simp) ha
  have h3 : k ≠ "N2O" := by rintro rfl; exact hn _ (by simp) ha
  have h4 : k ≠ "LANDUSE" := by rintro rfl; exact hn _ (by simp) ha
  unfold ForcingData.forcing
  rw [if_neg h1, if_neg h2, if_neg h3, if_neg h4, if_pos ha]

/-- C55 in a run, the regional rows: in every run and every run year the reported forcing of a regional row
is its efficiency times the change of the emissions of the region since the start year (plus
perturbations that name the row). -/
theorem C55_run_regional {cops : CarbonOps ℝ κ} {tops : ThermalOps ℝ τ} {d0 d d1 : Driver ℝ κ}
    {i : Inputs ℝ} {pamset carb : Option (Dict (PyVal ℝ))} {h0 g : Handler ℝ κ} {es : ℤ}
    {ps : List (RunPams ℝ)} {p : RunPams ℝ} {t : τ} (hgas : i.gas.keys.Nodup)
    (hTg : "Total_forcing" ∉ i.gas.keys)
    (ht : RunTables i.concIn i.emis (Dict.set (Factory.checkPamset pamset) "conc_run" (.bool i.concRun))
      d0.nystart es d0.nyend)
    (hc : construct cops i pamset carb = .ok h0) (hd0 : d0.source = .handler h0)
    (ha : After cops tops d0 ps d) (hr : run cops tops d p = .ok (d1, t)) (hg : d1.source = .handler g)
    {y : ℤ} (hy1 : d0.nystart ≤ y) (hy2 : y ≤ d0.nyend) {k region : String} (hk : k ∈ regionalAerosols)
    {x : Gas ℝ} (hx : i.gas.get? (regionalName k region) = some x) (hu : x.concUnit = "-") (hal : x.alpha ≠ 0)
    {emis : Frame ℝ} {e e0 : ℝ} (he : perturbedEmis i = .ok emis) (h1 : emis.at' (regionalName k region) y = .ok e)
    (h2 : emis.at' (regionalName k region) d0.nystart = .ok e0) :
    ∃ c ∈ reportForcing g d0.nystart, c.1 = regionalName k region ∧
      c.2 y = some (x.alpha * (e - e0) + pertOf i.pertForc (regionalName k region) y) := by
  obtain ⟨emis', luc, he', hl, hD⟩ := C59_run hgas hTg ht hc hd0 ha hr hg hy1 hy2
  rw [he, Except.ok.injEq] at he'
  subst he'
  have hkG : g.gas.keys = i.gas.keys := by
    obtain ⟨emis', a, b', c, fb, luc, sun, r, Y, -⟩ := run_year yearLaw_real ht hc hd0 ha hr hg hy1 hy2
    exact Y.keysG
  obtain ⟨D, hO⟩ := observed_exists g i emis luc d0.nystart y (by rw [hkG]; exact hgas)
  obtain ⟨n1, n2, n3⟩ := regionalName_ne (region := region) hk
  obtain ⟨c, hcm, hc1, hc2⟩ := hD D hO (regionalName k region) ⟨x, hx, Or.inl hu, n1, n2⟩
  refine ⟨c, hcm, ?_, ?_⟩
  · rw [hc1, columnName, if_neg n3]
  · rw [hc2, forcing_of_aerosol D (regional_isAerosol hk).2]
    unfold ForcingData.aerosol ForcingData.emisChange
    rw [if_pos (by rw [hO.alpha _ x hx]; exact hal), hO.alpha _ x hx, hO.year, hO.start, hO.emis _ _ _ h1,
      hO.emis _ _ _ h2]

/-- C55 in a run, the global row: if a region of the aerosol is in the gas table, the global row (with zero
efficiency in the gas table) has no forcing of its own in any run year, whatever sensitivity the user
gave. -/
theorem C55_run_no_double {cops : CarbonOps ℝ κ} {tops : ThermalOps ℝ τ} {d0 d d1 : Driver ℝ κ}
    {i : Inputs ℝ} {pamset carb : Option (Dict (PyVal ℝ))} {h0 g : Handler ℝ κ} {es : ℤ}
    {ps : List (RunPams ℝ)} {p : RunPams ℝ} {t : τ} (hgas : i.gas.keys.Nodup)
    (hTg : "Total_forcing" ∉ i.gas.keys)
    (ht : RunTables i.concIn i.emis (Dict.set (Factory.checkPamset pamset) "conc_run" (.bool i.concRun))
      d0.nystart es d0.nyend)
    (hc : construct cops i pamset carb = .ok h0) (hd0 : d0.source = .handler h0)
    (ha : After cops tops d0 ps d) (hr : run cops tops d p = .ok (d1, t)) (hg : d1.source = .handler g)
    {y : ℤ} (hy1 : d0.nystart ≤ y) (hy2 : y ≤ d0.nyend) {k region : String} (hk : k ∈ regionalAerosols)
    (hreg : regionalName k region ∈ i.gas.keys) {x : Gas ℝ} (hx : i.gas.get? k = some x)
    (hu : x.concUnit = "-") (hal : x.alpha = 0) :
    ∃ c ∈ reportForcing g d0.nystart, c.1 = columnName k ∧ c.2 y = some (pertOf i.pertForc k y) := by
  obtain ⟨emis, luc, he, hl, hD⟩ := C59_run hgas hTg ht hc hd0 ha hr hg hy1 hy2
  have hkG : g.gas.keys = i.gas.keys := by
    obtain ⟨emis', a, b', c, fb, luc, sun, r, Y, -⟩ := run_year yearLaw_real ht hc hd0 ha hr hg hy1 hy2
    exact Y.keysG
  obtain ⟨D, hO⟩ := observed_exists g i emis luc d0.nystart y (by rw [hkG]; exact hgas)
  have hne : k ≠ "STRAT_O3" ∧ k ≠ "CO2.1" := by
    simp only [regionalAerosols, List.mem_cons, List.not_mem_nil, or_false] at hk
    rcases hk with rfl | rfl | rfl <;> exact ⟨by decide, by decide⟩
  obtain ⟨c, hcm, hc1, hc2⟩ := hD D hO k ⟨x, hx, Or.inl hu, hne.1, hne.2⟩
  refine ⟨c, hcm, hc1, ?_⟩
  rw [hc2, forcing_of_aerosol D (regional_isAerosol (region := "") hk).1]
  unfold ForcingData.aerosol
  rw [if_neg (by rw [hO.alpha k x hx, hal]; simp)]
  obtain ⟨q, hq, hsrc⟩ : ∃ q, (k, q) ∈ globalAerosols ∧ aerosolSource k = some (k, q) := by
    simp only [regionalAerosols, List.mem_cons, List.not_mem_nil, or_false] at hk
    rcases hk with rfl | rfl | rfl
    · exact ⟨"qdirso2", by simp [globalAerosols], by decide⟩
    · exact ⟨"qbc", by simp [globalAerosols], by decide⟩
    · exact ⟨"qoc", by simp [globalAerosols], by decide⟩
  have hpar : D.par q = 0 := by
    refine hO.par q 0 ?_
    obtain ⟨h, hd, -⟩ := after_spec yearLaw_real hd0 ha (fun _ => True) trivial
      (fun _ _ _ _ _ _ _ => trivial) (fun _ _ _ _ _ _ => trivial)
    obtain ⟨g0, g', hre, hg', hs, hkk, -⟩ := run_handler_spec hd hr
    rw [hg, Source.handler.injEq] at hg'
    subst hg'
    obtain ⟨pam, car, r1, r2, rfl⟩ := reset_spec hre
    have : g.pam.get? q = some (.flt 0) := by
      rw [hs.pam]
      refine avoid_zero (region := region) hq ?_
      have : regionalName k region ∈ g.gas.keys := by rw [hkG]; exact hreg
      rw [hkk] at this
      exact this
    unfold pamF Dict.getE
    rw [this]
    rfl
  rw [hsrc]
  simp only
  rw [hpar, zero_mul, zero_add]

/-- C55, the global row with an efficiency of its own: regional rows do not switch it off. -/
theorem C55_efficiency_counted {cops : CarbonOps ℝ κ} {tops : ThermalOps ℝ τ} {d0 d d1 : Driver ℝ κ}
    {i : Inputs ℝ} {pamset carb : Option (Dict (PyVal ℝ))} {h0 g : Handler ℝ κ} {es : ℤ}
    {ps : List (RunPams ℝ)} {p : RunPams ℝ} {t : τ} (hgas : i.gas.keys.Nodup)
    (hTg : "Total_forcing" ∉ i.gas.keys)
    (ht : RunTables i.concIn i.emis (Dict.set (Factory.checkPamset pamset) "conc_run" (.bool i.concRun))
      d0.nystart es d0.nyend)
    (hc : construct cops i pamset carb = .ok h0) (hd0 : d0.source = .handler h0)
    (ha : After cops tops d0 ps d) (hr : run cops tops d p = .ok (d1, t)) (hg : d1.source = .handler g)
    {y : ℤ} (hy1 : d0.nystart ≤ y) (hy2 : y ≤ d0.nyend) {k : String} (hk : k ∈ regionalAerosols)
    {x : Gas ℝ} (hx : i.gas.get? k = some x) (hu : x.concUnit = "-") (hal : x.alpha ≠ 0)
    {emis : Frame ℝ} {e e0 : ℝ} (he : perturbedEmis i = .ok emis) (h1 : emis.at' k y = .ok e)
    (h2 : emis.at' k d0.nystart = .ok e0) :
    ∃ c ∈ reportForcing g d0.nystart, c.1 = columnName k ∧
      c.2 y = some (x.alpha * (e - e0) + pertOf i.pertForc k y) := by
  obtain ⟨emis', luc, he', hl, hD⟩ := C59_run hgas hTg ht hc hd0 ha hr hg hy1 hy2
  rw [he, Except.ok.injEq] at he'
  subst he'
  have hkG : g.gas.keys = i.gas.keys := by
    obtain ⟨emis', a, b', c, fb, luc, sun, r, Y, -⟩ := run_year yearLaw_real ht hc hd0 ha hr hg hy1 hy2
    exact Y.keysG
  obtain ⟨D, hO⟩ := observed_exists g i emis luc d0.nystart y (by rw [hkG]; exact hgas)
  have hne : k ≠ "STRAT_O3" ∧ k ≠ "CO2.1" := by
    simp only [regionalAerosols, List.mem_cons, List.not_mem_nil, or_false] at hk
    rcases hk with rfl | rfl | rfl <;> exact ⟨by decide, by decide⟩
  obtain ⟨c, hcm, hc1, hc2⟩ := hD D hO k ⟨x, hx, Or.inl hu, hne.1, hne.2⟩
  refine ⟨c, hcm, hc1, ?_⟩
  rw [hc2, forcing_of_aerosol D (regional_isAerosol (region := "") hk).1]
  unfold ForcingData.aerosol ForcingData.emisChange
  rw [if_pos (by rw [hO.alpha _ x hx]; exact hal), hO.alpha _ x hx, hO.year, hO.start, hO.emis _ _ _ h1,
    hO.emis _ _ _ h2]

end

/-! ## A run with regional rows -/

section
open Verif.Exec Verif.Model.ThermalInst Verif.Model.CarbonInst

theorem rich_emis (b : Bool) : ∃ emis, perturbedEmis (richInputs b) = .ok emis ∧
    ∀ t ∈ ["SO2_ASIA", "BC_ASIA", "BC"], ∀ y, 1995 ≤ y → y < 2012 → emis.at' t y = .ok ((y - 1990 : ℤ) : ℝ) := by
  obtain ⟨emis, he, hc, hi⟩ := perturbedEmis_ok (rich_tables b).pertEm
  refine ⟨emis, he, fun t ht y h1 h2 => ?_⟩
  have hy : y ∈ (richInputs b).emis.idx := by
    simp only [richInputs, mem_pyRange]
    omega
  have htc : t ∈ (richInputs b).emis.cols := by
    simp only [List.mem_cons, List.not_mem_nil, or_false] at ht
    rcases ht with rfl | rfl | rfl <;> simp [richInputs]
  have hne : "CO2_FF" ≠ t := by
    simp only [List.mem_cons, List.not_mem_nil, or_false] at ht
    rcases ht with rfl | rfl | rfl <;> decide
  unfold Frame.at'
  rw [if_pos ⟨by rw [hc]; exact htc, by rw [hi]; exact hy⟩, (perturbedEmis_spec he).2.2 t y hy]
  simp [usedEmis, richInputs, emissionTarget, hne]

/-- `C55_run_no_double` and `C55_run_regional`: sulphur has a regional row and no efficiency of its own, so in
2002 only the regional row has a forcing (emissions rise by one a year, the regional efficiency is 1/2). -/
example (b : Bool) : ∃ (g : Handler ℝ (BoxM ℝ)),
    (∃ c ∈ reportForcing g 1998, c.1 = "SO4_DIR" ∧ c.2 2002 = some 0) ∧
    ∃ c ∈ reportForcing g 1998, c.1 = "SO2_ASIA" ∧ c.2 2002 = some 2 := by
  obtain ⟨h0, d, d1, t, g, hc, ht, ha, hr, hg⟩ := rich_case b
  obtain ⟨emis, he, hv⟩ := rich_emis b
  have hp : ∀ k, k ≠ "CO2" → pertOf (richInputs b).pertForc k 2002 = 0 := by
    intro k hk
    simp [richInputs, pertOf, pertSum, Ne.symm hk]
  obtain ⟨c1, m1, n1, v1⟩ := C55_run_no_double (d0 := richDriver h0) (rich_once b).1 (rich_once b).2 ht hc rfl ha hr hg
    (y := 2002) (by simp [richDriver]) (by simp [richDriver]) (k := "SO2") (region := "ASIA") (by simp [regionalAerosols])
    (by show _ ∈ richGas.keys; decide) (x := ⟨"-", 0, 0, 0, 0, 0, 0, 1⟩) rfl rfl rfl
  obtain ⟨c2, m2, n2, v2⟩ := C55_run_regional (d0 := richDriver h0) (rich_once b).1 (rich_once b).2 ht hc rfl ha hr hg
    (y := 2002) (by simp [richDriver]) (by simp [richDriver]) (k := "SO2") (region := "ASIA") (by simp [regionalAerosols])
    (x := ⟨"-", 1/2, 0, 0, 0, 0, 0, 1⟩) rfl rfl (by norm_num) he (hv _ (by decide) _ (by norm_num) (by norm_num))
    (hv _ (by decide) _ (by simp [richDriver]) (by simp [richDriver]))
  refine ⟨g, ⟨c1, m1, n1, ?_⟩, ⟨c2, m2, n2, ?_⟩⟩
  · rw [v1, hp _ (by decide)]
  · rw [v2, hp _ (by decide)]
    simp only [richDriver]
    norm_num

/-- C55, "nothing is counted twice", is false of the code for a gas table that gives the global row an
efficiency: the same emissions are then counted in the global row and in the region. -/
theorem C55_efficiency_false : ∃ (g : Handler ℝ (BoxM ℝ)) (ps : List (RunPams ℝ)) (d1 : Driver ℝ (BoxM ℝ)) (h0 : Handler ℝ (BoxM ℝ)),
    construct boxOps (richInputs true) richPam none = .ok h0 ∧
    After boxOps twoLayerOps (richDriver h0) ps d1 ∧ d1.source = .handler g ∧
    regionalName "BC" "ASIA" ∈ richGas.keys ∧
    (∃ c ∈ reportForcing g 1998, c.1 = "BC" ∧ c.2 2001 = some 1) ∧
    ∃ c ∈ reportForcing g 1998, c.1 = "BC_ASIA" ∧ c.2 2001 = some (3 / 5) := by
  obtain ⟨h0, d, d1, t, g, hc, ht, ha, hr, hg⟩ := rich_case true
  obtain ⟨emis, he, hv⟩ := rich_emis true
  have hp : ∀ k, k ≠ "CO2" → pertOf (richInputs true).pertForc k 2001 = 0 := by
    intro k hk
    simp [richInputs, pertOf, pertSum]
  obtain ⟨c1, m1, n1, v1⟩ := C55_efficiency_counted (d0 := richDriver h0) (rich_once true).1 (rich_once true).2 ht hc rfl
    ha hr hg (y := 2001) (by simp [richDriver]) (by simp [richDriver]) (k := "BC") (by simp [regionalAerosols])
    (x := ⟨"-", 1/3, 0, 0, 0, 0, 0, 1⟩) rfl rfl (by norm_num) he (hv _ (by decide) _ (by norm_num) (by norm_num))
    (hv _ (by decide) _ (by simp [richDriver]) (by simp [richDriver]))
  obtain ⟨c2, m2, n2, v2⟩ := C55_run_regional (d0 := richDriver h0) (rich_once true).1 (rich_once true).2 ht hc rfl
    ha hr hg (y := 2001) (by simp [richDriver]) (by simp [richDriver]) (k := "BC") (region := "ASIA")
    (by simp [regionalAerosols])
    (x := ⟨"-", 1/5, 0, 0, 0, 0, 0, 1⟩) rfl rfl (by norm_num) he (hv _ (by decide) _ (by norm_num) (by norm_num))
    (hv _ (by decide) _ (by simp [richDriver]) (by simp [richDriver]))
  refine ⟨g, _, d1, h0, hc, .next ha hr, hg, by decide, ⟨c1, m1, n1, ?_⟩, ⟨c2, m2, n2, ?_⟩⟩
  · rw [v1, hp _ (by decide)]
    simp only [richDriver]
    norm_num
  · rw [v2, hp _ (by decide)]
    simp only [richDriver]
    norm_num

end
end Verif.Props
