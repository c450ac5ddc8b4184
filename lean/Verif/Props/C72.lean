import Verif.Lemmas.CarbonOut
import Verif.Props.C69_C70
import Verif.Props.C20_C21_C28

/-!
# C72 — the carbon cycle table of an emission-driven run

Asking for it always succeeds, leaves the instance as it is, and what it says about fluxes and airborne fraction belongs to
the run: the budget of emissions, atmosphere, ocean and land closes with the reported numbers (`C19_run`,
`C72_airborne`). The three diagnostic columns are not those of the run: they are evaluated at the temperature of the same
year, while the carbon cycle used the year before (`C72_diagnostics_false`).
-/

namespace Verif.Props
open Verif.Py Verif.Py.Dict Verif.Model Verif.Model.Handler Verif.Model.Driver Verif.Spec
  Verif.Model.CarbonInst Verif.Model.CarbonOut

section
variable {F κ τ : Type} [Add F] [Sub F] [Mul F] [Div F] [Neg F] [OfScientific F] [LT F] [DecidableLT F]
  [MathFn F]

/-- The entry of a column in the row with number `n`; none for a missing column, a column of NaN, or no such row. -/
def cell (tab : List (Column F)) (name : String) (n : ℕ) : Option F :=
  (Dict.get? tab name).bind (fun c => c.bind (fun a => a[n]?))

omit [Add F] [Sub F] [Mul F] [Div F] [Neg F] [OfScientific F] [LT F] [DecidableLT F] [MathFn F] in
theorem cell_of {tab : List (Column F)} {name : String} {a : List F} (h : Dict.get? tab name = some (some a)) (n : ℕ) :
    cell tab name n = a[n]? := by
  unfold cell; rw [h]; rfl

/-- C72, for every number type: the table of an emission-driven run with the default carbon cycle (any thermal model
reporting the global temperature, any history). It is always produced and producing it changes nothing. In the row of
every year the ocean and land fluxes are those of the stand-alone carbon cycle of `C71_run` (same emissions `E`,
temperatures `T` and parameters `P`), and the three diagnostics are the feedback functions at the temperature
reported for the same year. The airborne fraction is computed from fossil and land use emissions. -/
theorem C72_run (law : YearLaw F) {tops : ThermalOps F τ} {d0 d d1 : Driver F (IR F)}
    {i : Inputs F} {pamset carb : Option (Dict (PyVal F))} {h0 g : Handler F (IR F)} {es : ℤ}
    {ps : List (RunPams F)} {p : RunPams F} {t : τ} (hgas : i.gas.keys.Nodup)
    (hout : (tops.outputs.map Prod.fst ++ forcOutputList).Nodup)
    (ht : RunTables i.concIn i.emis (Dict.set (Factory.checkPamset pamset) "conc_run" (.bool i.concRun))
      d0.nystart es d0.nyend)
    (hc : construct irOps i pamset carb = .ok h0) (hd0 : d0.source = .handler h0)
    (ha : After irOps tops d0 ps d) (hr : run irOps tops d p = .ok (d1, t)) (hg : d1.source = .handler g)
    (hrun : i.concRun = false) {x : Gas F} (hx : i.gas.get? "CO2" = some x) (hu : x.concUnit ≠ "-")
    (hfb : d0.feedbackList = some ["dtemp"]) (hdt : ("dT_glob", "dtemp") ∈ tops.outputs)
    (hfirst : PubUtils.getFirstKey tops.outputs "dtemp" = .ok "dT_glob") :
    ∃ (P : Carbon.Pams F) (emis : Frame F) (E : ℕ → F) (T : ℕ → Option F) (ff lu temp conc : ℕ → F) (tab : List (Column F)),
      perturbedEmis i = .ok emis ∧ YearlyCO2 emis x.natEm d0.nystart d0.nyend E ∧
      LastTemperature d1.results d0.nystart d0.nyend T ∧ irPams g.carbon = .ok P ∧ 0 < P.idtm ∧
      g.carbon.hold = Carbon.yearState P E T (Carbon.initState P) (d0.nyend - d0.nystart + 1).toNat ∧
      carbonTable irOut tops d1 true = .ok (some tab, d1) ∧
      tab.map Prod.fst = ["Biosphere carbon flux", "Ocean carbon flux", "Mixed layer depth", "CO2 solubility",
        "Net Primary Production", "Airborne fraction CO2"] ∧
      (∃ c ∈ reportConc g, c.1 = "CO2" ∧ ∀ y, d0.nystart ≤ y → y ≤ d0.nyend →
        c.2 y = some (conc (y - d0.nystart).toNat)) ∧
      (∀ n : ℕ, d0.nystart + n ≤ d0.nyend →
        emis.at' "CO2_FF" (d0.nystart + n) = .ok (ff n) ∧ emis.at' "CO2_AFOLU" (d0.nystart + n) = .ok (lu n) ∧
        entry d1.results "dT_glob" n = some (temp n) ∧
        conc n = (Carbon.yearState P E T (Carbon.initState P) (n + 1)).xCO2) ∧
      (let N := (d0.nyend - d0.nystart + 1).toNat
       let last := Carbon.yearState P E T (Carbon.initState P) N
       (∀ n < N, cell tab "Biosphere carbon flux" n = some (Carbon.biosphereFlux P last.dfnpp n) ∧
          cell tab "Ocean carbon flux" n = some (Carbon.oceanFlux P last n) ∧
          cell tab "Mixed layer depth" n = some (Carbon.mixedLayerTempFeedback P (temp n)) ∧
          cell tab "CO2 solubility" n = some (Carbon.solubilityTempFeedback P (temp n)) ∧
          cell tab "Net Primary Production" n = some (Carbon.fnppFromTemp P (temp n))) ∧
       Dict.get? tab "Airborne fraction CO2" = some (Carbon.airborneFraction
          ((List.range N).map (fun n => ff n + lu n)) ((List.range N).map conc) P.preindustrial_co2_conc)) := by
  have hle := ht.nonempty
  obtain ⟨P, emis, E, T, he, hE, hT, hP, hid, hhold, c, hcm, hc1, hy⟩ :=
    C71_run law hgas hout ht hc hd0 ha hr hg hrun hx hu hfb (by simp) hdt
  obtain ⟨f1, f2, f3, f4, f5, f6⟩ := run_frame law hout ht hc hd0 ha hr hg
  rw [he, Except.ok.injEq] at f2
  rw [hrun] at f3
  have hN : (d0.nyend + 1 - d0.nystart).toNat = (d0.nyend - d0.nystart + 1).toNat := by omega
  -- the size of the run
  have hyt : P.years_tot = (d0.nyend - d0.nystart + 1).toNat := by
    obtain ⟨hf, -, hst1, -⟩ := ir_construct (ns := d0.nystart) (ne := d0.nyend) hc
      (by have := ht.nystart; rwa [pamI_set (by decide)] at this)
      (by have := ht.nyend; rwa [pamI_set (by decide)] at this)
    obtain ⟨h', hd', hK, -, -⟩ := after_spec law hd0 (After.next ha hr) (IRKept ((ps ++ [p]).map (·.carbon)) h0.carbon)
      ⟨rfl, rfl, rfl, fun _ _ => Iff.rfl, fun _ _ => rfl, hf⟩
      (fun k y em fb r hP e => ir_step hP e)
      (fun p' hp' k k' hP e => ir_reset (List.mem_map_of_mem hp') hP e)
    rw [hg] at hd'
    cases hd'
    rw [(irPams_idtm hP).2.1, hK.years_tot, hst1]
  have hyl : g.years.length = (d0.nyend - d0.nystart + 1).toNat := by rw [f1, pyRange_length, hN]
  -- the series
  obtain ⟨temp, htemp⟩ : ∃ temp : ℕ → F, ∀ n < (d0.nyend - d0.nystart + 1).toNat,
      entry d1.results "dT_glob" n = some (temp n) := by
    refine ⟨fun n => (entry d1.results "dT_glob" n).getD 0.0, ?_⟩
    intro n hn
    have hl := f6 "dT_glob" (List.mem_append_left _ (List.mem_map.2 ⟨_, hdt, rfl⟩))
    unfold len at hl
    unfold entry
    cases hq : d1.results.get? "dT_glob" with
    | none => rw [hq] at hl; cases hl
    | some a =>
      rw [hq] at hl
      simp only [Option.map_some, Option.some.injEq] at hl
      simp only [Option.bind_some]
      rw [List.getElem?_eq_getElem (by omega)]
      rfl
  have hser := series_of_entries (f6 "dT_glob" (List.mem_append_left _ (List.mem_map.2 ⟨_, hdt, rfl⟩))) htemp
  have hfs := feedbackSeries_dtemp hfirst hser
  obtain ⟨ff, lu, hfl⟩ : ∃ ff lu : ℕ → F, ∀ n : ℕ, d0.nystart + n < d0.nyend + 1 →
      emis.at' "CO2_FF" (d0.nystart + n) = .ok (ff n) ∧ emis.at' "CO2_AFOLU" (d0.nystart + n) = .ok (lu n) := by
    have : ∀ n : ℕ, ∃ q : F × F, d0.nystart + n < d0.nyend + 1 →
        emis.at' "CO2_FF" (d0.nystart + n) = .ok q.1 ∧ emis.at' "CO2_AFOLU" (d0.nystart + n) = .ok q.2 := by
      intro n
      by_cases h : d0.nystart + (n : ℤ) < d0.nyend + 1
      · obtain ⟨a, b, h1, h2, -⟩ := hE (d0.nystart + n) (by omega) (by omega)
        exact ⟨(a, b), fun _ => ⟨h1, h2⟩⟩
      · exact ⟨(0.0, 0.0), fun h' => absurd h' h⟩
    choose q hq using this
    exact ⟨fun n => (q n).1, fun n => (q n).2, hq⟩
  have hconc := concSeries_run (g := g) (v := fun n => (Carbon.yearState P E T (Carbon.initState P) (n + 1)).xCO2) f1 f4
    (by
      intro n hn
      have := hy (d0.nystart + n) (by omega) (by omega)
      rw [show (d0.nystart + (n : ℤ) - d0.nystart).toNat = n by omega] at this
      exact reportConc_co2 hcm hc1 f4 this)
  have hem := emSeries_run (g := g) f1 (ff := ff) (lu := lu) (by rw [← f2]; exact hfl)
  rw [hN] at hconc hem
  have hpre : preindustrialOf g.carbon.pam = .ok P.preindustrial_co2_conc := by
    have h4 := (irPams_idtm hP).2.2.2.2.1
    unfold preindustrialOf
    rw [if_pos, h4]
    unfold pamF Dict.getE at h4
    unfold Dict.has
    cases hq : Dict.get? g.carbon.pam "preindustrial_co2_conc" with
    | none => rw [hq] at h4; cases h4
    | some v => rfl
  have hout' := irOutput_emission (conc := (List.range (d0.nyend - d0.nystart + 1).toNat).map
      (fun n => (Carbon.yearState P E T (Carbon.initState P) (n + 1)).xCO2))
    (dtemp := (List.range (d0.nyend - d0.nystart + 1).toNat).map temp) (years := g.years) hP hid (by simp [hyl]) (by simp [hyl])
    (by rw [hyt, hyl])
  have hget : ∀ (f : ℕ → F) (n : ℕ), n < (d0.nyend - d0.nystart + 1).toNat →
      ((List.range (d0.nyend - d0.nystart + 1).toNat).map f)[n]? = some (f n) := by
    intro f n hn
    rw [List.getElem?_map, List.getElem?_range hn]
    rfl
  have htab : carbonTable irOut tops d1 true = .ok (some (Dict.set
      [("Biosphere carbon flux", some ((List.range g.years.length).map (Carbon.biosphereFlux P g.carbon.hold.dfnpp))),
       ("Ocean carbon flux", some ((List.range g.years.length).map (Carbon.oceanFlux P g.carbon.hold))),
       ("Mixed layer depth", some (((List.range (d0.nyend - d0.nystart + 1).toNat).map temp).map
          (Carbon.mixedLayerTempFeedback P))),
       ("CO2 solubility", some (((List.range (d0.nyend - d0.nystart + 1).toNat).map temp).map
          (Carbon.solubilityTempFeedback P))),
       ("Net Primary Production", some (((List.range (d0.nyend - d0.nystart + 1).toNat).map temp).map
          (Carbon.fnppFromTemp P)))] "Airborne fraction CO2" (Carbon.airborneFraction
          ((List.range (d0.nyend - d0.nystart + 1).toNat).map (fun n => ff n + lu n))
          ((List.range (d0.nyend - d0.nystart + 1).toNat).map
            (fun n => (Carbon.yearState P E T (Carbon.initState P) (n + 1)).xCO2)) P.preindustrial_co2_conc)), d1) := by
    unfold carbonTable
    rw [hg]
    simp only [f5, hfb, hfs, bind_ok, if_true]
    unfold carbonCycleData
    rw [hconc, bind_ok, f3, bind_ok]
    simp only [Bool.false_eq_true, if_false, hem, bind_ok]
    simp only [irOut]
    rw [hout', bind_ok]
    simp only [hpre, bind_ok, pure_ok]
    have e : ({ d1 with source := .handler g, feedbackList := some ["dtemp"] } : Driver F (IR F)) = d1 := by
      rw [← hg, ← hfb, ← f5]
    exact congrArg (fun z => Except.ok (some _, z)) e
  refine ⟨P, emis, E, T, ff, lu, temp, fun n => (Carbon.yearState P E T (Carbon.initState P) (n + 1)).xCO2, _, he, hE,
    hT, hP, hid, hhold, htab, rfl, ⟨c, hcm, hc1, hy⟩, ?_, ?_, rfl⟩
  · intro n hn
    obtain ⟨a, b⟩ := hfl n (by omega)
    exact ⟨a, b, htemp n (by omega), rfl⟩
  · intro n hn
    rw [← hhold]
    refine ⟨?_, ?_, ?_, ?_, ?_⟩
    · rw [cell_of rfl, hyl]; exact hget _ n hn
    · rw [cell_of rfl, hyl]; exact hget _ n hn
    all_goals rw [cell_of rfl, List.map_map]; exact hget _ n hn

end

/-! ## In exact arithmetic -/

section
variable {τ : Type}

theorem oceanFlux_stable {P : Carbon.Pams ℝ} (E : ℕ → ℝ) (T : ℕ → Option ℝ) (hi : P.idtm ≠ 0) {n Y N : ℕ} (h1 : n < Y)
    (h2 : Y ≤ N) : Carbon.oceanFlux P (Carbon.yearState P E T (Carbon.initState P) N) n =
      Carbon.oceanFlux P (Carbon.yearState P E T (Carbon.initState P) Y) n := by
  unfold Carbon.oceanFlux
  rw [Carbon.yearState_eq P hi, Carbon.yearState_eq P hi]
  congr 4
  apply congrArg fsum
  apply List.map_congr_left
  intro i h
  have h3 := List.mem_range.1 h
  refine (subState_stable P E T _ (Y * P.idtm) (N * P.idtm) (Nat.mul_le_mul_right _ h2) _ ?_).1
  calc P.idtm * n + i < P.idtm * n + P.idtm := by omega
    _ = P.idtm * (n + 1) := by ring
    _ ≤ P.idtm * Y := Nat.mul_le_mul_left _ h1
    _ = Y * P.idtm := Nat.mul_comm _ _

theorem biosphereFlux_stable {P : Carbon.Pams ℝ} (E : ℕ → ℝ) (T : ℕ → Option ℝ) (hi : P.idtm ≠ 0) {n Y N : ℕ} (h1 : n < Y)
    (h2 : Y ≤ N) : Carbon.biosphereFlux P (Carbon.yearState P E T (Carbon.initState P) N).dfnpp n =
      Carbon.biosphereFlux P (Carbon.yearState P E T (Carbon.initState P) Y).dfnpp n := by
  unfold Carbon.biosphereFlux
  rw [Carbon.yearState_eq P hi, Carbon.yearState_eq P hi]
  congr 2
  apply List.map_congr_left
  intro i h
  have h3 := List.mem_range.1 h
  apply Carbon.fferSeries_congr
  intro j hj
  refine (subState_stable P E T _ (Y * P.idtm) (N * P.idtm) (Nat.mul_le_mul_right _ h2) _ ?_).2
  calc j ≤ P.idtm * n + i := hj
    _ < P.idtm * n + P.idtm := by omega
    _ = P.idtm * (n + 1) := by ring
    _ ≤ P.idtm * Y := Nat.mul_le_mul_left _ h1
    _ = Y * P.idtm := Nat.mul_comm _ _

/-- The end term of the budget after `Y` years: half a sub-step of the first and the last net input, of the last air-sea
flux, and of the last change of the ocean's partial pressure. -/
noncomputable def budgetEnd (P : Carbon.Pams ℝ) (E : ℕ → ℝ) (T : ℕ → Option ℝ) (Y : ℕ) : ℝ :=
  let st := Carbon.yearState P E T (Carbon.initState P) Y
  let n := Y * P.idtm - 1
  2.123 * ((netInput P E st.dfnpp 0 - netInput P E st.dfnpp n) / (2 * P.idtm) + kx / P.idtm * st.sCO2 n / 2
    + (st.yCO2 - (Carbon.subState P E T (Carbon.initState P) n).yCO2) / 2)

/-- C19 with the numbers a run reports: in every emission-driven run with the default carbon cycle, up to every year, the
increase of the reported CO2 concentration (in PgC) plus the reported ocean and land fluxes add up to the emissions
(fossil, land use and natural), but for the end term. -/
theorem C19_run {tops : ThermalOps ℝ τ} {d0 d d1 : Driver ℝ (IR ℝ)}
    {i : Inputs ℝ} {pamset carb : Option (Dict (PyVal ℝ))} {h0 g : Handler ℝ (IR ℝ)} {es : ℤ}
    {ps : List (RunPams ℝ)} {p : RunPams ℝ} {t : τ} (hgas : i.gas.keys.Nodup)
    (hout : (tops.outputs.map Prod.fst ++ forcOutputList).Nodup)
    (ht : RunTables i.concIn i.emis (Dict.set (Factory.checkPamset pamset) "conc_run" (.bool i.concRun))
      d0.nystart es d0.nyend)
    (hc : construct irOps i pamset carb = .ok h0) (hd0 : d0.source = .handler h0)
    (ha : After irOps tops d0 ps d) (hr : run irOps tops d p = .ok (d1, t)) (hg : d1.source = .handler g)
    (hrun : i.concRun = false) {x : Gas ℝ} (hx : i.gas.get? "CO2" = some x) (hu : x.concUnit ≠ "-")
    (hfb : d0.feedbackList = some ["dtemp"]) (hdt : ("dT_glob", "dtemp") ∈ tops.outputs)
    (hfirst : PubUtils.getFirstKey tops.outputs "dtemp" = .ok "dT_glob") :
    ∃ (P : Carbon.Pams ℝ) (emis : Frame ℝ) (E : ℕ → ℝ) (T : ℕ → Option ℝ) (tab : List (Column ℝ)) (conc ocean land : ℕ → ℝ),
      irPams g.carbon = .ok P ∧ perturbedEmis i = .ok emis ∧ YearlyCO2 emis x.natEm d0.nystart d0.nyend E ∧
      LastTemperature d1.results d0.nystart d0.nyend T ∧
      carbonTable irOut tops d1 true = .ok (some tab, d1) ∧
      (∃ c ∈ reportConc g, c.1 = "CO2" ∧ ∀ y, d0.nystart ≤ y → y ≤ d0.nyend →
        c.2 y = some (conc (y - d0.nystart).toNat)) ∧
      ∀ n : ℕ, d0.nystart + n ≤ d0.nyend →
        cell tab "Ocean carbon flux" n = some (ocean n) ∧ cell tab "Biosphere carbon flux" n = some (land n) ∧
        2.123 * (conc n - P.preindustrial_co2_conc) + ∑ k ∈ Finset.range (n + 1), ocean k
          + ∑ k ∈ Finset.range (n + 1), land k = ∑ k ∈ Finset.range (n + 1), E k + budgetEnd P E T (n + 1) := by
  obtain ⟨P, emis, E, T, ff, lu, temp, conc, tab, he, hE, hT, hP, hid, hhold, htab, -, hconc, hs, hcells, -⟩ :=
    C72_run yearLaw_real hgas hout ht hc hd0 ha hr hg hrun hx hu hfb hdt hfirst
  refine ⟨P, emis, E, T, tab, conc,
    fun n => Carbon.oceanFlux P (Carbon.yearState P E T (Carbon.initState P) (d0.nyend - d0.nystart + 1).toNat) n,
    fun n => Carbon.biosphereFlux P (Carbon.yearState P E T (Carbon.initState P)
      (d0.nyend - d0.nystart + 1).toNat).dfnpp n, hP, he, hE, hT, htab, hconc, ?_⟩
  intro n hn
  obtain ⟨h1, h2, -⟩ := hcells n (by omega)
  refine ⟨h2, h1, ?_⟩
  have hb := C19_budget_reported P E T (by omega) (n + 1) (by omega)
  simp only at hb
  rw [(hs n hn).2.2.2]
  rw [Finset.sum_congr rfl (fun k hk => oceanFlux_stable E T (by omega) (Y := n + 1) (Finset.mem_range.1 hk) (by omega)),
    Finset.sum_congr rfl (fun k hk => biosphereFlux_stable E T (by omega) (Y := n + 1) (Finset.mem_range.1 hk) (by omega)), hb]
  rfl

/-- C72, the airborne fraction: in every emission-driven run either the column is NaN, exactly when some cumulative sum
of fossil and land use emissions is zero, or in every year airborne fraction times cumulative fossil and land use emissions
is the increase of the reported concentration since pre-industrial in PgC. Natural emissions of CO2 are left out. -/
theorem C72_airborne {tops : ThermalOps ℝ τ} {d0 d d1 : Driver ℝ (IR ℝ)}
    {i : Inputs ℝ} {pamset carb : Option (Dict (PyVal ℝ))} {h0 g : Handler ℝ (IR ℝ)} {es : ℤ}
    {ps : List (RunPams ℝ)} {p : RunPams ℝ} {t : τ} (hgas : i.gas.keys.Nodup)
    (hout : (tops.outputs.map Prod.fst ++ forcOutputList).Nodup)
    (ht : RunTables i.concIn i.emis (Dict.set (Factory.checkPamset pamset) "conc_run" (.bool i.concRun))
      d0.nystart es d0.nyend)
    (hc : construct irOps i pamset carb = .ok h0) (hd0 : d0.source = .handler h0)
    (ha : After irOps tops d0 ps d) (hr : run irOps tops d p = .ok (d1, t)) (hg : d1.source = .handler g)
    (hrun : i.concRun = false) {x : Gas ℝ} (hx : i.gas.get? "CO2" = some x) (hu : x.concUnit ≠ "-")
    (hfb : d0.feedbackList = some ["dtemp"]) (hdt : ("dT_glob", "dtemp") ∈ tops.outputs)
    (hfirst : PubUtils.getFirstKey tops.outputs "dtemp" = .ok "dT_glob") :
    ∃ (P : Carbon.Pams ℝ) (emis : Frame ℝ) (tab : List (Column ℝ)) (ff lu conc : ℕ → ℝ),
      irPams g.carbon = .ok P ∧ perturbedEmis i = .ok emis ∧ carbonTable irOut tops d1 true = .ok (some tab, d1) ∧
      (∃ c ∈ reportConc g, c.1 = "CO2" ∧ ∀ y, d0.nystart ≤ y → y ≤ d0.nyend →
        c.2 y = some (conc (y - d0.nystart).toNat)) ∧
      (∀ n : ℕ, d0.nystart + n ≤ d0.nyend →
        emis.at' "CO2_FF" (d0.nystart + n) = .ok (ff n) ∧ emis.at' "CO2_AFOLU" (d0.nystart + n) = .ok (lu n)) ∧
      ((Dict.get? tab "Airborne fraction CO2" = some none ∧
          ∃ n : ℕ, d0.nystart + n ≤ d0.nyend ∧ ∑ k ∈ Finset.range (n + 1), (ff k + lu k) = 0) ∨
        ∀ n : ℕ, d0.nystart + n ≤ d0.nyend → ∑ k ∈ Finset.range (n + 1), (ff k + lu k) ≠ 0 ∧
          ∃ a, cell tab "Airborne fraction CO2" n = some a ∧
            a * ∑ k ∈ Finset.range (n + 1), (ff k + lu k) = (conc n - P.preindustrial_co2_conc) * 2.123) := by
  have hle := ht.nonempty
  obtain ⟨P, emis, E, T, ff, lu, temp, conc, tab, he, hE, hT, hP, hid, hhold, htab, -, hconc, hs, -, hair⟩ :=
    C72_run yearLaw_real hgas hout ht hc hd0 ha hr hg hrun hx hu hfb hdt hfirst
  refine ⟨P, emis, tab, ff, lu, conc, hP, he, htab, hconc, fun n hn => ⟨(hs n hn).1, (hs n hn).2.1⟩, ?_⟩
  have hcum : ∀ n, n < (d0.nyend - d0.nystart + 1).toNat →
      cumTo ((List.range (d0.nyend - d0.nystart + 1).toNat).map (fun n => ff n + lu n)) n =
        ∑ k ∈ Finset.range (n + 1), (ff k + lu k) := by
    intro n hn
    unfold cumTo
    rw [← List.map_take, List.take_range, min_eq_left (by omega)]
    rfl
  rcases C28_airborne_fraction ((List.range (d0.nyend - d0.nystart + 1).toNat).map (fun n => ff n + lu n))
    ((List.range (d0.nyend - d0.nystart + 1).toNat).map conc) P.preindustrial_co2_conc (by simp) with
    ⟨af, h1, h2, h3, h4⟩ | ⟨h1, n, h2, h3⟩
  · right
    intro n hn
    have hn' : n < (d0.nyend - d0.nystart + 1).toNat := by omega
    rw [List.length_map, List.length_range] at h2 h3
    refine ⟨by rw [← hcum n hn']; exact h3 n hn', af[n], ?_, ?_⟩
    · rw [h1] at hair
      rw [cell_of hair, List.getElem?_eq_getElem]
    · have := h4 n (by omega) (by simpa using hn')
      rw [hcum n hn'] at this
      simpa using this
  · left
    rw [List.length_map, List.length_range] at h2
    refine ⟨by rw [hair, h1], n, by omega, by rw [← hcum n h2]; exact h3⟩

theorem yearState_feedback (P : Carbon.Pams ℝ) (E : ℕ → ℝ) (T : ℕ → Option ℝ) (st : Carbon.State ℝ) (n : ℕ) :
    (Carbon.yearState P E T st (n + 1)).mlFb = Carbon.mixedLayerTempFeedback P ((T n).getD 0) ∧
    (Carbon.yearState P E T st (n + 1)).solFb = Carbon.solubilityTempFeedback P ((T n).getD 0) := by
  have e0 : (0.0 : ℝ) = 0 := by norm_num
  rw [Carbon.yearState, Carbon.co2em2conc, e0]
  have key : ∀ (l : List ℕ) (s : Carbon.State ℝ) (f : ℝ) (k : ℕ),
      (l.foldl (fun st i => Carbon.subStep P f (E n) st (k + i)) s).mlFb = s.mlFb ∧
      (l.foldl (fun st i => Carbon.subStep P f (E n) st (k + i)) s).solFb = s.solFb := by
    intro l
    induction l with
    | nil => intro s f k; exact ⟨rfl, rfl⟩
    | cons a l ih =>
      intro s f k
      rw [List.foldl_cons]
      obtain ⟨h1, h2⟩ := ih (Carbon.subStep P f (E n) s (k + a)) f k
      rw [h1, h2]
      have hs := Carbon.subStep_spec P f (E n) s (k + a)
      exact ⟨hs.mlFb, hs.solFb⟩
  exact key _ _ _ _

/-- C72, the diagnostics. Intended: the mixed layer depth, solubility and production in the row of a year are those the
carbon cycle worked with in that year. Proved: they are those it worked with in the *following* year (for the last row:
would work with). -/
theorem C72_diagnostics_partial {tops : ThermalOps ℝ τ} {d0 d d1 : Driver ℝ (IR ℝ)}
    {i : Inputs ℝ} {pamset carb : Option (Dict (PyVal ℝ))} {h0 g : Handler ℝ (IR ℝ)} {es : ℤ}
    {ps : List (RunPams ℝ)} {p : RunPams ℝ} {t : τ} (hgas : i.gas.keys.Nodup)
    (hout : (tops.outputs.map Prod.fst ++ forcOutputList).Nodup)
    (ht : RunTables i.concIn i.emis (Dict.set (Factory.checkPamset pamset) "conc_run" (.bool i.concRun))
      d0.nystart es d0.nyend)
    (hc : construct irOps i pamset carb = .ok h0) (hd0 : d0.source = .handler h0)
    (ha : After irOps tops d0 ps d) (hr : run irOps tops d p = .ok (d1, t)) (hg : d1.source = .handler g)
    (hrun : i.concRun = false) {x : Gas ℝ} (hx : i.gas.get? "CO2" = some x) (hu : x.concUnit ≠ "-")
    (hfb : d0.feedbackList = some ["dtemp"]) (hdt : ("dT_glob", "dtemp") ∈ tops.outputs)
    (hfirst : PubUtils.getFirstKey tops.outputs "dtemp" = .ok "dT_glob") :
    ∃ (P : Carbon.Pams ℝ) (E : ℕ → ℝ) (T : ℕ → Option ℝ) (tab : List (Column ℝ)),
      irPams g.carbon = .ok P ∧ LastTemperature d1.results d0.nystart d0.nyend T ∧
      carbonTable irOut tops d1 true = .ok (some tab, d1) ∧
      g.carbon.hold = Carbon.yearState P E T (Carbon.initState P) (d0.nyend - d0.nystart + 1).toNat ∧
      ∀ n : ℕ, d0.nystart + n ≤ d0.nyend →
        cell tab "Mixed layer depth" n = some (Carbon.yearState P E T (Carbon.initState P) (n + 2)).mlFb ∧
        cell tab "CO2 solubility" n = some (Carbon.yearState P E T (Carbon.initState P) (n + 2)).solFb ∧
        cell tab "Net Primary Production" n = some (Carbon.fnppFromTemp P ((T (n + 1)).getD 0)) := by
  obtain ⟨P, emis, E, T, ff, lu, temp, conc, tab, he, hE, hT, hP, hid, hhold, htab, -, hconc, hs, hcells, -⟩ :=
    C72_run yearLaw_real hgas hout ht hc hd0 ha hr hg hrun hx hu hfb hdt hfirst
  refine ⟨P, E, T, tab, hP, hT, htab, hhold, ?_⟩
  intro n hn
  obtain ⟨-, -, h1, h2, h3⟩ := hcells n (by omega)
  have hTn := hT.2 (d0.nystart + n) (by omega) hn
  rw [show (d0.nystart + (n : ℤ) - d0.nystart).toNat = n by omega, (hs n hn).2.2.1] at hTn
  obtain ⟨f1, f2⟩ := yearState_feedback P E T (Carbon.initState P) (n + 1)
  rw [f1, f2, hTn]
  exact ⟨h1, h2, h3⟩

/-- With the depth falling as it warms, a warm first year is reported with a shallower mixed layer than the carbon cycle
had. -/
theorem mixedLayer_lt {P : Carbon.Pams ℝ} (h1 : 0 < P.ml_fracmax) (h2 : P.ml_fracmax ≤ 1) (h3 : 0 < P.ml_w_sigmoid)
    (h4 : P.ml_depth_min < P.mixed_carbon) (h5 : 0 < P.mixed_carbon) {u : ℝ} (hu : 0 < u) :
    Carbon.mixedLayerTempFeedback P u < Carbon.mixedLayerTempFeedback P 0 := by
  have hs : ∀ a : ℝ, 0 < Carbon.sigmoidGen a P.ml_t_half P.ml_w_sigmoid ∧
      Carbon.sigmoidGen a P.ml_t_half P.ml_w_sigmoid < 1 := by
    intro a
    unfold Carbon.sigmoidGen
    have := Real.exp_pos (-((a - P.ml_t_half) / P.ml_w_sigmoid))
    simp only [mexp]
    norm_num
    constructor
    · positivity
    · rw [inv_lt_one₀ (by positivity)]; linarith
  have hmono : Carbon.sigmoidGen 0 P.ml_t_half P.ml_w_sigmoid < Carbon.sigmoidGen u P.ml_t_half P.ml_w_sigmoid := by
    unfold Carbon.sigmoidGen
    simp only [mexp]
    have hlt : Real.exp (-((u - P.ml_t_half) / P.ml_w_sigmoid)) < Real.exp (-((0 - P.ml_t_half) / P.ml_w_sigmoid)) := by
      rw [Real.exp_lt_exp, neg_lt_neg_iff]
      gcongr
    have := Real.exp_pos (-((u - P.ml_t_half) / P.ml_w_sigmoid))
    rw [show (1.0 : ℝ) = 1 by norm_num]
    exact one_div_lt_one_div_of_lt (by linarith) (by linarith)
  have e0 : (0.0 : ℝ) = 0 := by norm_num
  have e1 : (1.0 : ℝ) = 1 := by norm_num
  obtain ⟨a1, a2⟩ := hs 0
  obtain ⟨b1, b2⟩ := hs u
  have hb : 0 < 1 - P.ml_fracmax * Carbon.sigmoidGen 0 P.ml_t_half P.ml_w_sigmoid := by nlinarith
  unfold Carbon.mixedLayerTempFeedback
  simp only [e0, e1]
  rw [mul_div_assoc, mul_div_assoc, div_self hb.ne', mul_one, if_neg (not_lt.2 h4.le)]
  have hlt : P.mixed_carbon * ((1 - P.ml_fracmax * Carbon.sigmoidGen u P.ml_t_half P.ml_w_sigmoid) /
      (1 - P.ml_fracmax * Carbon.sigmoidGen 0 P.ml_t_half P.ml_w_sigmoid)) < P.mixed_carbon := by
    have : (1 - P.ml_fracmax * Carbon.sigmoidGen u P.ml_t_half P.ml_w_sigmoid) /
        (1 - P.ml_fracmax * Carbon.sigmoidGen 0 P.ml_t_half P.ml_w_sigmoid) < 1 := by
      rw [div_lt_one hb]; nlinarith
    nlinarith
  split
  · exact h4
  · exact hlt

/-- C72 as intended is false for every run whose first year is warm: the mixed layer depth reported for the first year is
not the one the carbon cycle worked with in that year. -/
theorem C72_diagnostics_false {tops : ThermalOps ℝ τ} {d0 d d1 : Driver ℝ (IR ℝ)}
    {i : Inputs ℝ} {pamset carb : Option (Dict (PyVal ℝ))} {h0 g : Handler ℝ (IR ℝ)} {es : ℤ}
    {ps : List (RunPams ℝ)} {p : RunPams ℝ} {t : τ} (hgas : i.gas.keys.Nodup)
    (hout : (tops.outputs.map Prod.fst ++ forcOutputList).Nodup)
    (ht : RunTables i.concIn i.emis (Dict.set (Factory.checkPamset pamset) "conc_run" (.bool i.concRun))
      d0.nystart es d0.nyend)
    (hc : construct irOps i pamset carb = .ok h0) (hd0 : d0.source = .handler h0)
    (ha : After irOps tops d0 ps d) (hr : run irOps tops d p = .ok (d1, t)) (hg : d1.source = .handler g)
    (hrun : i.concRun = false) {x : Gas ℝ} (hx : i.gas.get? "CO2" = some x) (hu : x.concUnit ≠ "-")
    (hfb : d0.feedbackList = some ["dtemp"]) (hdt : ("dT_glob", "dtemp") ∈ tops.outputs)
    (hfirst : PubUtils.getFirstKey tops.outputs "dtemp" = .ok "dT_glob")
    {u : ℝ} (hwarm : entry d1.results "dT_glob" 0 = some u) (h0u : 0 < u)
    (hpam : ∀ P, irPams g.carbon = .ok P → 0 < P.ml_fracmax ∧ P.ml_fracmax ≤ 1 ∧ 0 < P.ml_w_sigmoid ∧
      P.ml_depth_min < P.mixed_carbon ∧ 0 < P.mixed_carbon) :
    ∃ (P : Carbon.Pams ℝ) (E : ℕ → ℝ) (T : ℕ → Option ℝ) (tab : List (Column ℝ)),
      irPams g.carbon = .ok P ∧ LastTemperature d1.results d0.nystart d0.nyend T ∧
      carbonTable irOut tops d1 true = .ok (some tab, d1) ∧
      g.carbon.hold = Carbon.yearState P E T (Carbon.initState P) (d0.nyend - d0.nystart + 1).toNat ∧
      cell tab "Mixed layer depth" 0 ≠ some (Carbon.yearState P E T (Carbon.initState P) 1).mlFb := by
  have hle := ht.nonempty
  obtain ⟨P, E, T, tab, hP, hT, htab, hhold, hrow⟩ := C72_diagnostics_partial hgas hout ht hc hd0 ha hr hg hrun hx hu hfb hdt
    hfirst
  refine ⟨P, E, T, tab, hP, hT, htab, hhold, ?_⟩
  obtain ⟨q1, q2, q3, q4, q5⟩ := hpam P hP
  rw [(hrow 0 (by simpa using hle)).1, (yearState_feedback P E T _ 1).1, (yearState_feedback P E T _ 0).1, hT.1]
  have h1 := hT.2 d0.nystart (le_refl _) hle
  rw [sub_self, Int.toNat_zero, zero_add, hwarm] at h1
  rw [h1]
  intro e
  rw [Option.some.injEq] at e
  exact absurd e (mixedLayer_lt q1 q2 q3 q4 q5 h0u).ne

end

/-! ## The hypotheses are met -/

section
open Verif.Model.ThermalInst Verif.Exec

theorem twoLayer_first : PubUtils.getFirstKey (twoLayerOps (F := ℝ)).outputs "dtemp" = .ok "dT_glob" := rfl

theorem twoLayer_temperature : ("dT_glob", "dtemp") ∈ (twoLayerOps (F := ℝ)).outputs := by
  simp [twoLayerOps, twoLayerOutputs]

/-- The third of three emission-driven runs with an emission perturbation in 2001: budget of the four years up to
2001, in reported numbers. -/
example : ∃ (d1 : Driver ℝ (IR ℝ)) (g : Handler ℝ (IR ℝ)) (P : Carbon.Pams ℝ) (E : ℕ → ℝ) (T : ℕ → Option ℝ)
    (tab : List (Column ℝ)) (conc ocean land : ℕ → ℝ),
    d1.source = .handler g ∧ carbonTable irOut twoLayerOps d1 true = .ok (some tab, d1) ∧
    cell tab "Ocean carbon flux" 3 = some (ocean 3) ∧ cell tab "Biosphere carbon flux" 3 = some (land 3) ∧
    2.123 * (conc 3 - P.preindustrial_co2_conc) + ∑ k ∈ Finset.range 4, ocean k + ∑ k ∈ Finset.range 4, land k =
      ∑ k ∈ Finset.range 4, E k + budgetEnd P E T 4 := by
  obtain ⟨h0, d, d1, t, g, hc, ht, ha, hr, hg⟩ := rich_case_default false
  obtain ⟨P, emis, E, T, tab, conc, ocean, land, -, -, -, -, htab, -, h⟩ := C19_run (d0 := richDriver h0)
    (rich_once false).1 twoLayer_names ht hc rfl ha hr hg rfl rich_co2 (by decide) rfl twoLayer_temperature twoLayer_first
  obtain ⟨h1, h2, h3⟩ := h 3 (by simp [richDriver])
  exact ⟨d1, g, P, E, T, tab, conc, ocean, land, hg, htab, h1, h2, h3⟩

/-- The same run: the airborne fraction exists, because every cumulative sum of its emissions is positive. -/
example : ∃ (d1 : Driver ℝ (IR ℝ)) (tab : List (Column ℝ)) (a : ℝ),
    carbonTable irOut twoLayerOps d1 true = .ok (some tab, d1) ∧ cell tab "Airborne fraction CO2" 3 = some a := by
  obtain ⟨h0, d, d1, t, g, hc, ht, ha, hr, hg⟩ := rich_case_default false
  obtain ⟨P, emis, tab, ff, lu, conc, -, he, htab, -, hs, h⟩ := C72_airborne (d0 := richDriver h0)
    (rich_once false).1 twoLayer_names ht hc rfl ha hr hg rfl rich_co2 (by decide) rfl twoLayer_temperature twoLayer_first
  rcases h with ⟨-, n, hn, h⟩ | h
  · exfalso
    have hpos : ∀ k ∈ Finset.range (n + 1), 0 < ff k + lu k := by
      intro k hk
      rw [Finset.mem_range] at hk
      have hk' : (richDriver h0).nystart + (k : ℤ) ≤ (richDriver h0).nyend := by
        have : (k : ℤ) ≤ n := by omega
        linarith
      obtain ⟨e1, e2⟩ := hs k hk'
      have hk2 : (k : ℤ) ≤ 5 := by simp only [richDriver] at hk'; omega
      have hy : (richDriver h0).nystart + (k : ℤ) ∈ (richInputs false).emis.idx := by
        simp [richInputs, mem_pyRange, richDriver]; omega
      have f1 := ((frame_at'_eq_ok.1 e1).2.2).symm
      have f2 := ((frame_at'_eq_ok.1 e2).2.2).symm
      rw [(perturbedEmis_spec he).2.2 _ _ hy] at f1 f2
      have hk3 : (0 : ℝ) ≤ k := Nat.cast_nonneg k
      rw [f1, f2]
      have hf : ∀ f : PertRow ℝ → Bool, 0 ≤ ((([⟨"CO2", 2001, 3⟩] : List (PertRow ℝ)).filter f).map PertRow.value).sum := by
        intro f
        rw [List.filter_singleton]
        cases f _ <;> simp
      simp only [usedEmis, richInputs, richDriver, Int.cast_sub, Int.cast_add, Int.cast_ofNat, Int.cast_natCast]
      refine add_pos (add_pos_of_pos_of_nonneg ?_ (hf _)) (add_pos_of_pos_of_nonneg ?_ (hf _)) <;> linarith
    exact absurd h (Finset.sum_pos hpos ⟨0, by simp⟩).ne'
  · obtain ⟨-, a, ha, -⟩ := h 3 (by simp [richDriver])
    exact ⟨d1, tab, a, htab, ha⟩

/-- A thermal model that is one degree warm in every year. -/
noncomputable def warmOps : ThermalOps ℝ Unit where
  create := fun _ => .ok ()
  setFeedback := fun _ _ => ()
  budget := fun _ _ _ _ _ => .ok ([("dtemp", 1)], ())
  outputs := [("dT_glob", "dtemp")]

theorem warm_works (q : Option (Dict (PyVal ℝ))) : ThermalWorks warmOps q := by
  refine ⟨fun _ => True, ⟨(), rfl, trivial⟩, fun _ _ _ => trivial, ?_⟩
  intro t fn fs vn vs _ _ _
  refine ⟨[("dtemp", 1)], (), rfl, trivial, ?_⟩
  intro p hp
  simp only [warmOps, List.mem_singleton] at hp
  subst hp
  exact ⟨1, rfl⟩

/-- A first emission-driven run with that thermal model and the default carbon parameters. -/
theorem warm_case : ∃ (h0 : Handler ℝ (IR ℝ)) (d1 : Driver ℝ (IR ℝ)) (g : Handler ℝ (IR ℝ)),
    construct irOps (richInputs false) richPam none = .ok h0 ∧
    run irOps warmOps (richDriver h0) ⟨none, none, none⟩ = .ok (d1, ()) ∧ d1.source = .handler g := by
  obtain ⟨h1, h2, h3, h4, h5⟩ := rich_pams
  have hcp : PlainIR (Dict.set ((none : Option (Dict (PyVal ℝ))).getD []) "preindustrial_co2_conc"
      (.flt ((richInputs false).concIn.cell "CO2" 1998))) := by
    apply NoResponse.plain
    intro key hk
    rcases (mem_keys_set _ _ _ _).1 hk with rfl | hk
    · exact ⟨by decide, by decide, by decide⟩
    · cases hk
  obtain ⟨h0, hc, h⟩ := C63_completes (tops := warmOps) (carb := none) yearLaw_real rich_gases (rich_tables false) h1 h2 h3
    (.absent (by decide)) (ir_creates hcp (by decide) h1 h2 h4 (by decide))
    (ir_resets (by decide) _ (fun p hp => by rw [Option.some.injEq] at hp; subst hp; exact hcp)) (ir_works 1998 2003)
  obtain ⟨d1, hd⟩ := h (richDriver h0) [⟨none, none, none⟩] rfl rfl rfl (rich_series h0) (by
    intro p hp
    rw [List.mem_singleton] at hp
    subst hp
    exact ⟨warm_works _, ir_resets (by decide) _ (by simp), h5, .absent (by decide)⟩)
  obtain ⟨ps, hps⟩ : ∃ ps, [(⟨none, none, none⟩ : RunPams ℝ)] = ps := ⟨_, rfl⟩
  rw [hps] at hd
  cases hd with
  | fresh => cases hps
  | @next ps p d d1 t hprev hr =>
    have hps' : ([] : List (RunPams ℝ)) ++ [⟨none, none, none⟩] = ps ++ [p] := hps
    obtain ⟨e1, e2⟩ := List.append_inj' hps' rfl
    subst e1
    rw [List.cons.injEq] at e2
    obtain ⟨e2, -⟩ := e2
    subst e2
    obtain ⟨l, hl⟩ : ∃ l : List (RunPams ℝ), [] = l := ⟨_, rfl⟩
    have hdd : d = richDriver h0 := by
      rw [hl] at hprev
      cases hprev with
      | fresh => rfl
      | next _ _ => simp at hl
    subst hdd
    obtain ⟨g0, g, -, hg, -⟩ := run_handler_spec (rfl : (richDriver h0).source = .handler h0) hr
    exact ⟨h0, d1, g, hc, hr, hg⟩

/-- The mixed layer depth it reports for the first year is not the one the carbon cycle had. -/
example : ∃ (d1 : Driver ℝ (IR ℝ)) (g : Handler ℝ (IR ℝ)) (P : Carbon.Pams ℝ) (E : ℕ → ℝ) (T : ℕ → Option ℝ)
    (tab : List (Column ℝ)), d1.source = .handler g ∧ irPams g.carbon = .ok P ∧
    carbonTable irOut warmOps d1 true = .ok (some tab, d1) ∧ g.carbon.hold = Carbon.yearState P E T (Carbon.initState P) 6 ∧
    cell tab "Mixed layer depth" 0 ≠ some (Carbon.yearState P E T (Carbon.initState P) 1).mlFb := by
  obtain ⟨h0, d1, g, hc, hr, hg⟩ := warm_case
  obtain ⟨h1, h2, h3, h4, h5⟩ := rich_pams
  have ht := (rich_tables false).run h1 h2 h3
  have hout : (warmOps.outputs.map Prod.fst ++ forcOutputList).Nodup := by decide
  have hwarm : entry d1.results "dT_glob" 0 = some 1 := by
    obtain ⟨h, emis, tr, H, hd, hsame, htr, hreset, hH, hyr⟩ := run_years yearLaw_real (d0 := richDriver h0) ht hc rfl .fresh
      hr hg
    obtain ⟨b, luc, sun, r, values, vn, vs, Y, hy, -⟩ := hyr 1998 (by simp [richDriver]) (by simp [richDriver])
    have e := entry_final htr hout "dT_glob" (y := 1998) (by simp [richDriver]) (by simp [richDriver])
    have hb := hy.budget
    simp only [warmOps, Except.ok.injEq, Prod.mk.injEq] at hb
    obtain ⟨v, v1, v2⟩ := (addYearData_spec hout hy.results).2.2.1 ("dT_glob", "dtemp") (by simp [warmOps])
    rw [← hb.1] at v1
    cases v1
    rw [← v2]
    exact e
  have hdef : ∀ {x : String} {v : ℝ}, get? (irRequired (F := ℝ)) x = some (.flt v) → x ≠ "preindustrial_co2_conc" →
      ∀ {w}, pamF g.carbon.pam x = .ok w → w = v := by
    intro x v hx hne w hw
    have := C71_parameters yearLaw_real (d0 := richDriver h0) (carb := none) (by simp [WF, Dict.keys]) ht hc rfl .fresh hr hg
      hx hne (by
        intro q hq
        rw [List.nil_append, List.mem_singleton] at hq
        subst hq
        rintro ⟨a, b, hab, -⟩
        cases hab)
    unfold pamF Dict.getE at hw
    rw [this] at hw
    simp only [Option.getD_none, Dict.get?, bind_ok, PyVal.toF, Except.ok.injEq] at hw
    exact hw.symm
  obtain ⟨P, E, T, tab, hP, hT, htab, hhold, hne⟩ := C72_diagnostics_false (d0 := richDriver h0) (rich_once false).1 hout ht hc
    rfl .fresh hr hg rfl rich_co2 (by decide) rfl (by simp [warmOps]) rfl hwarm (by norm_num) (by
      intro P hP
      obtain ⟨-, -, -, -, -, -, q1, q2, q3, q4⟩ := irPams_idtm hP
      rw [hdef rfl (by decide) q1, hdef rfl (by decide) q2, hdef rfl (by decide) q3, hdef rfl (by decide) q4]
      norm_num)
  exact ⟨d1, g, P, E, T, tab, hg, hP, htab, hhold, hne⟩

end

end Verif.Props
