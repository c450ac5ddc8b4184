import Verif.Props.C73

/-!
# C82 — the carbon cycle table of a run with the box carbon cycle

The table of `add_results_to_dict` when the box carbon cycle is in use: which columns it has, that asking for it changes
nothing, and how its fluxes relate to the reported concentrations. The fluxes in the row of a year are the ones the carbon
cycle applies in the *next* year (`C82_next_year`): it works with the concentration at the start of a year and the
temperature of the year before.
-/

namespace Verif.Props
open Verif.Py Verif.Py.Dict Verif.Model Verif.Model.Handler Verif.Model.Driver Verif.Spec
  Verif.Model.CarbonInst Verif.Model.CarbonOut

section
variable {F τ : Type} [Add F] [Sub F] [Mul F] [Div F] [Neg F] [OfScientific F] [LT F] [DecidableLT F]
  [MathFn F]

/-- The box model's parameters are numbers and the pre-industrial concentration is not one of them. -/
def BoxKept (k : BoxM F) : Prop := BoxFit k ∧ "preindustrial_co2_conc" ∉ k.pam.keys

theorem box_kept_reset {k k' : BoxM F} {q : Option (Dict (PyVal F))} (h : BoxKept k) (e : boxReset k q = .ok k') :
    BoxKept k' := by
  unfold boxReset at e
  rw [Except.ok.injEq] at e
  subst e
  exact ⟨Numeric.update h.1 _ _, by simp only [C02_keys]; exact h.2⟩

theorem box_kept_construct {i : Inputs F} {pamset carb : Option (Dict (PyVal F))} {h0 : Handler F (BoxM F)}
    (hc : construct boxOps i pamset carb = .ok h0) : BoxKept h0.carbon := by
  obtain ⟨ns1, ne1, emis, clbr, prec, pre, k0, k, e1, e2, -, -, -, e6, e7, e8, rfl⟩ := construct_spec hc
  simp only [boxOps] at e8
  refine box_kept_reset (k' := k) ⟨?_, ?_⟩ e8
  · obtain ⟨k1, f1, f2⟩ := box_creates (F := F) (Dict.set (Factory.checkPamset pamset) "conc_run" (.bool i.concRun))
      (Dict.set (carb.getD []) "preindustrial_co2_conc" (.flt pre))
    rw [f1, Except.ok.injEq] at e7
    rw [← e7]
    exact f2
  · simp only [boxOps, boxCreate, boxReset, Except.ok.injEq] at e7
    subst e7
    simp only [C02_keys]
    unfold cutAndCheckPamset
    rw [mem_keys_checkNumeric, mem_keys_cut, mem_keys_usedKeys]
    have h : "preindustrial_co2_conc" ∉ (boxRequired (F := F)).keys := by simp [boxRequired, Dict.keys]
    have h' : "preindustrial_co2_conc" ∉ Dict.keys ([] : Dict (PyVal F)) := by simp [Dict.keys]
    simp [h, h']

theorem box_kept_after (law : YearLaw F) {tops : ThermalOps F τ} {d0 d1 : Driver F (BoxM F)} {i : Inputs F}
    {pamset carb : Option (Dict (PyVal F))} {h0 g : Handler F (BoxM F)} {ps : List (RunPams F)}
    (hc : construct boxOps i pamset carb = .ok h0) (hd0 : d0.source = .handler h0)
    (ha : After boxOps tops d0 ps d1) (hg : d1.source = .handler g) : BoxKept g.carbon := by
  obtain ⟨h', hd', hK, -, -⟩ := after_spec law hd0 ha BoxKept (box_kept_construct hc)
    (fun k y em fb r hP e => by
      simp only [boxOps, boxStep, bind_eq_ok] at e
      obtain ⟨p, -, e⟩ := e
      rw [pure_ok, Except.ok.injEq] at e
      subst e
      exact hP)
    (fun p' hp' k k' hP e => box_kept_reset hP e)
  rw [hg] at hd'
  cases hd'
  exact hK

theorem box_params {k : BoxM F} (hk : BoxFit k) : ∃ P, boxPams k = .ok P := by
  obtain ⟨r, h, -⟩ := box_works (F := F) 0 0 k 0 0.0 none (le_refl _) (le_refl _) hk
  simp only [boxOps, boxStep, bind_eq_ok] at h
  obtain ⟨p, hp, -⟩ := h
  exact ⟨p, hp⟩

omit [Add F] [Sub F] [Mul F] [Div F] [LT F] [DecidableLT F] in
theorem box_preindustrial {k : BoxM F} (hk : BoxKept k) : preindustrialOf k.pam = .ok 278.0 := by
  unfold preindustrialOf
  rw [if_neg]
  unfold Dict.has
  rw [(get?_eq_none_iff _ _).2 hk.2]
  simp

omit [Add F] [Sub F] [Mul F] [Div F] [Neg F] [LT F] [DecidableLT F] [MathFn F] in
theorem temp_series {r : Dict (List F)} {o : String} {N : ℕ} (hl : len r o = some N) :
    ∃ temp : ℕ → F, ∀ n < N, entry r o n = some (temp n) := by
  refine ⟨fun n => (entry r o n).getD 0.0, ?_⟩
  intro n hn
  unfold len at hl
  unfold entry
  cases hq : r.get? o with
  | none => rw [hq] at hl; cases hl
  | some a =>
    rw [hq] at hl
    simp only [Option.map_some, Option.some.injEq] at hl
    simp only [Option.bind_some]
    rw [List.getElem?_eq_getElem (by omega)]
    rfl

omit [Neg F] in
theorem boxOutput_series {k : BoxM F} {P : Box.Pams F} {years : List ℤ} {b : Bool} {N : ℕ} {conc temp : ℕ → F}
    (hP : boxPams k = .ok P) (hy : years.length = N) :
    boxOutput k years b ((List.range N).map conc) (some [("dtemp", (List.range N).map temp)]) = .ok
      ([("Net primary production", some ((List.range N).map (fun n => Box.calculateNpp P (conc n) (temp n)))),
        ("Ocean carbon flux", some ((List.range N).map (fun n => Box.calculateOceanUptake P (conc n) (temp n))))], k) := by
  have hz : ∀ f : F → F → F, List.zipWith f ((List.range N).map conc) ((List.range N).map temp) =
      (List.range N).map (fun n => f (conc n) (temp n)) := by
    intro f
    rw [List.zipWith_map, List.zipWith_self]
  have hd : ((some [("dtemp", (List.range N).map temp)] : Option (Dict (List F))).bind
      (fun d => Dict.get? d "dtemp")).getD (List.replicate ((List.range N).map conc).length 0.0) =
      (List.range N).map temp := rfl
  unfold boxOutput
  rw [hP, bind_ok]
  simp only [hd]
  rw [if_neg (by simp [hy])]
  unfold Box.outputNpp Box.outputOceanFlux
  rw [hz, hz]
  rfl

/-- C82, for every number type: the table of an emission-driven run with the box carbon cycle (any thermal model
reporting the global temperature, any history). Asking for it always succeeds and changes nothing. It has the three named
columns. In the row of each year stand net primary production and ocean uptake at the concentration and the temperature
reported for that year, and the airborne fraction is computed from fossil and land use emissions with 278 ppm as
pre-industrial concentration, whatever the concentration table says. -/
theorem C82_run (law : YearLaw F) {tops : ThermalOps F τ} {d0 d d1 : Driver F (BoxM F)}
    {i : Inputs F} {pamset carb : Option (Dict (PyVal F))} {h0 g : Handler F (BoxM F)} {es : ℤ}
    {ps : List (RunPams F)} {p : RunPams F} {t : τ} (hgas : i.gas.keys.Nodup)
    (hout : (tops.outputs.map Prod.fst ++ forcOutputList).Nodup)
    (ht : RunTables i.concIn i.emis (Dict.set (Factory.checkPamset pamset) "conc_run" (.bool i.concRun))
      d0.nystart es d0.nyend)
    (hc : construct boxOps i pamset carb = .ok h0) (hd0 : d0.source = .handler h0)
    (ha : After boxOps tops d0 ps d) (hr : run boxOps tops d p = .ok (d1, t)) (hg : d1.source = .handler g)
    (hrun : i.concRun = false) {x : Gas F} (hx : i.gas.get? "CO2" = some x) (hu : x.concUnit ≠ "-")
    (hfb : d0.feedbackList = some ["dtemp"]) (hdt : ("dT_glob", "dtemp") ∈ tops.outputs)
    (hfirst : PubUtils.getFirstKey tops.outputs "dtemp" = .ok "dT_glob") :
    ∃ (P : Box.Pams F) (emis : Frame F) (E : ℕ → F) (T : ℕ → Option F) (ff lu temp conc : ℕ → F) (tab : List (Column F)),
      perturbedEmis i = .ok emis ∧ YearlyCO2 emis x.natEm d0.nystart d0.nyend E ∧
      LastTemperature d1.results d0.nystart d0.nyend T ∧ boxPams g.carbon = .ok P ∧
      (∀ n, conc n = (Box.run P Box.reset ((List.range (n + 1)).map (fun j => (E j, T j)))).atmospheric_co2) ∧
      carbonTable boxOut tops d1 true = .ok (some tab, d1) ∧
      tab.map Prod.fst = ["Net primary production", "Ocean carbon flux", "Airborne fraction CO2"] ∧
      (∀ y, d0.nystart ≤ y → y ≤ d0.nyend →
        ∃ c ∈ reportConc g, c.1 = "CO2" ∧ c.2 y = some (conc (y - d0.nystart).toNat)) ∧
      (∀ n : ℕ, d0.nystart + n ≤ d0.nyend →
        emis.at' "CO2_FF" (d0.nystart + n) = .ok (ff n) ∧ emis.at' "CO2_AFOLU" (d0.nystart + n) = .ok (lu n) ∧
        entry d1.results "dT_glob" n = some (temp n) ∧
        cell tab "Net primary production" n = some (Box.calculateNpp P (conc n) (temp n)) ∧
        cell tab "Ocean carbon flux" n = some (Box.calculateOceanUptake P (conc n) (temp n))) ∧
      (let N := (d0.nyend - d0.nystart + 1).toNat
       Dict.get? tab "Airborne fraction CO2" = some (Carbon.airborneFraction
          ((List.range N).map (fun n => ff n + lu n)) ((List.range N).map conc) 278.0)) := by
  have hle := ht.nonempty
  obtain ⟨P, emis, E, T, he, hE, hT, hP, hy, -⟩ :=
    C71_run_box law hgas hout ht hc hd0 ha hr hg hrun hx hu hfb (by simp) hdt
  obtain ⟨f1, f2, f3, f4, f5, f6⟩ := run_frame law hout ht hc hd0 ha hr hg
  rw [he, Except.ok.injEq] at f2
  rw [hrun] at f3
  have hK := box_kept_after law hc hd0 (After.next ha hr) hg
  obtain ⟨N, hNd⟩ : ∃ N, N = (d0.nyend - d0.nystart + 1).toNat := ⟨_, rfl⟩
  have hN : (d0.nyend + 1 - d0.nystart).toNat = N := by omega
  have hyl : g.years.length = N := by rw [f1, pyRange_length, hN]
  rw [← hNd] at f6
  obtain ⟨temp, htemp⟩ := temp_series (f6 "dT_glob" (List.mem_append_left _ (List.mem_map.2 ⟨_, hdt, rfl⟩)))
  have hser := series_of_entries (f6 "dT_glob" (List.mem_append_left _ (List.mem_map.2 ⟨_, hdt, rfl⟩))) htemp
  have hfs := feedbackSeries_dtemp hfirst hser
  obtain ⟨ff, lu, hfl⟩ : ∃ ff lu : ℕ → F, ∀ n : ℕ, d0.nystart + n < d0.nyend + 1 →
      emis.at' "CO2_FF" (d0.nystart + n) = .ok (ff n) ∧ emis.at' "CO2_AFOLU" (d0.nystart + n) = .ok (lu n) := by
    have : ∀ n : ℕ, ∃ q : F × F, d0.nystart + n < d0.nyend + 1 →
        emis.at' "CO2_FF" (d0.nystart + n) = .ok q.1 ∧ emis.at' "CO2_AFOLU" (d0.nystart + n) = .ok q.2 := by
      intro n
      by_cases h : d0.nystart + (n : ℤ) < d0.nyend + 1
      · obtain ⟨a, b, h1, h2, -⟩ := hE (d0.nystart + n) (by omega) (by omega)
        exact ⟨(a, b), fun _ => ⟨h1, h2⟩⟩
      · exact ⟨(0.0, 0.0), fun h' => absurd h' h⟩
    choose q hq using this
    exact ⟨fun n => (q n).1, fun n => (q n).2, hq⟩
  obtain ⟨conc, hcd⟩ : ∃ conc : ℕ → F, ∀ n, conc n =
      (Box.run P Box.reset ((List.range (n + 1)).map (fun j => (E j, T j)))).atmospheric_co2 := ⟨_, fun _ => rfl⟩
  simp only [← hcd] at hy
  have hconc := concSeries_run (g := g) (v := conc) f1 f4
    (by
      intro n hn
      obtain ⟨c, hcm, hc1, hcy⟩ := hy (d0.nystart + n) (by omega) (by omega)
      rw [show (d0.nystart + (n : ℤ) - d0.nystart).toNat = n by omega] at hcy
      exact reportConc_co2 hcm hc1 f4 hcy)
  have hem := emSeries_run (g := g) f1 (ff := ff) (lu := lu) (by rw [← f2]; exact hfl)
  rw [hN] at hconc hem
  have htab : carbonTable boxOut tops d1 true = .ok (some (Dict.set
      [("Net primary production", some ((List.range N).map (fun n => Box.calculateNpp P (conc n) (temp n)))),
        ("Ocean carbon flux", some ((List.range N).map (fun n => Box.calculateOceanUptake P (conc n) (temp n))))]
      "Airborne fraction CO2" (Carbon.airborneFraction
          ((List.range N).map (fun n => ff n + lu n)) ((List.range N).map conc) 278.0)), d1) := by
    unfold carbonTable
    rw [hg]
    simp only [f5, hfb, hfs, bind_ok, if_true]
    unfold carbonCycleData
    rw [hconc, bind_ok, f3, bind_ok]
    simp only [Bool.false_eq_true, if_false, hem, bind_ok]
    simp only [boxOut]
    rw [boxOutput_series hP hyl, bind_ok]
    simp only [box_preindustrial hK, bind_ok, pure_ok]
    have e : ({ d1 with source := .handler g, feedbackList := some ["dtemp"] } : Driver F (BoxM F)) = d1 := by
      rw [← hg, ← hfb, ← f5]
    exact congrArg (fun z => Except.ok (some _, z)) e
  have hget : ∀ (f : ℕ → F) (n : ℕ), n < N → ((List.range N).map f)[n]? = some (f n) := by
    intro f n hn
    rw [List.getElem?_map, List.getElem?_range hn]
    rfl
  refine ⟨P, emis, E, T, ff, lu, temp, conc, _, he, hE, hT, hP, hcd, htab, rfl, hy, ?_, by rw [← hNd]; rfl⟩
  intro n hn
  obtain ⟨a, b⟩ := hfl n (by omega)
  refine ⟨a, b, htemp n (by omega), ?_, ?_⟩
  all_goals rw [cell_of rfl]; exact hget _ n (by omega)

/-- C82, the following year: the fluxes in the row of a year are those that, with the emissions and the soil respiration
of the next year, change the concentration from this year's to the next year's. `soil` is the soil pool of the
stand-alone box model at the end of the year. -/
theorem C82_next_year (law : YearLaw F) {tops : ThermalOps F τ} {d0 d d1 : Driver F (BoxM F)}
    {i : Inputs F} {pamset carb : Option (Dict (PyVal F))} {h0 g : Handler F (BoxM F)} {es : ℤ}
    {ps : List (RunPams F)} {p : RunPams F} {t : τ} (hgas : i.gas.keys.Nodup)
    (hout : (tops.outputs.map Prod.fst ++ forcOutputList).Nodup)
    (ht : RunTables i.concIn i.emis (Dict.set (Factory.checkPamset pamset) "conc_run" (.bool i.concRun))
      d0.nystart es d0.nyend)
    (hc : construct boxOps i pamset carb = .ok h0) (hd0 : d0.source = .handler h0)
    (ha : After boxOps tops d0 ps d) (hr : run boxOps tops d p = .ok (d1, t)) (hg : d1.source = .handler g)
    (hrun : i.concRun = false) {x : Gas F} (hx : i.gas.get? "CO2" = some x) (hu : x.concUnit ≠ "-")
    (hfb : d0.feedbackList = some ["dtemp"]) (hdt : ("dT_glob", "dtemp") ∈ tops.outputs)
    (hfirst : PubUtils.getFirstKey tops.outputs "dtemp" = .ok "dT_glob") :
    ∃ (P : Box.Pams F) (emis : Frame F) (E : ℕ → F) (T : ℕ → Option F) (tab : List (Column F)) (conc npp ocean soil : ℕ → F),
      perturbedEmis i = .ok emis ∧ YearlyCO2 emis x.natEm d0.nystart d0.nyend E ∧
      LastTemperature d1.results d0.nystart d0.nyend T ∧ boxPams g.carbon = .ok P ∧
      carbonTable boxOut tops d1 true = .ok (some tab, d1) ∧
      (∀ n, soil n = (Box.run P Box.reset ((List.range (n + 1)).map (fun j => (E j, T j)))).soil_carbon) ∧
      ∀ n : ℕ, d0.nystart + n ≤ d0.nyend →
        (∃ c ∈ reportConc g, c.1 = "CO2" ∧ c.2 (d0.nystart + n) = some (conc n)) ∧
        cell tab "Net primary production" n = some (npp n) ∧ cell tab "Ocean carbon flux" n = some (ocean n) ∧
        (d0.nystart + (n + 1 : ℕ) ≤ d0.nyend →
          conc (n + 1) = conc n + (E (n + 1) - ocean n + soil n * P.soil_respiration_rate - npp n) / 2.123 * 1.0) := by
  obtain ⟨P, emis, E, T, ff, lu, temp, conc, tab, h1, h2, h3, h4, h5, h6, h7, h8, h9, -⟩ :=
    C82_run law hgas hout ht hc hd0 ha hr hg hrun hx hu hfb hdt hfirst
  refine ⟨P, emis, E, T, tab, conc, fun n => Box.calculateNpp P (conc n) (temp n),
    fun n => Box.calculateOceanUptake P (conc n) (temp n), _, h1, h2, h3, h4, h6, fun n => rfl, ?_⟩
  intro n hn
  obtain ⟨-, -, a3, a4, a5⟩ := h9 n hn
  refine ⟨?_, a4, a5, ?_⟩
  · have := h8 (d0.nystart + n) (by omega) hn
    rwa [show (d0.nystart + (n : ℤ) - d0.nystart).toNat = n by omega] at this
  · intro _
    have hT := h3.2 (d0.nystart + n) (by omega) hn
    rw [show (d0.nystart + (n : ℤ) - d0.nystart).toNat = n by omega, a3] at hT
    rw [h5 (n + 1), List.range_succ, List.map_append]
    unfold Box.run
    rw [List.foldl_append]
    simp only [List.map_cons, List.map_nil, List.foldl_cons, List.foldl_nil]
    have hcn := h5 n
    unfold Box.run at hcn
    generalize List.foldl _ _ _ = s at hcn ⊢
    rw [hcn, hT]
    rfl

/-- C82, concentration-driven runs: the same two fluxes at the prescribed concentrations and the reported temperatures of
the same year; no airborne fraction and no emissions are reported, and asking changes nothing. -/
theorem C82_conc_run (law : YearLaw F) {tops : ThermalOps F τ} {d0 d d1 : Driver F (BoxM F)}
    {i : Inputs F} {pamset carb : Option (Dict (PyVal F))} {h0 g : Handler F (BoxM F)} {es : ℤ}
    {ps : List (RunPams F)} {p : RunPams F} {t : τ}
    (hout : (tops.outputs.map Prod.fst ++ forcOutputList).Nodup)
    (ht : RunTables i.concIn i.emis (Dict.set (Factory.checkPamset pamset) "conc_run" (.bool i.concRun))
      d0.nystart es d0.nyend)
    (hc : construct boxOps i pamset carb = .ok h0) (hd0 : d0.source = .handler h0)
    (ha : After boxOps tops d0 ps d) (hr : run boxOps tops d p = .ok (d1, t)) (hg : d1.source = .handler g)
    (hrun : i.concRun = true) {x : Gas F} (hx : i.gas.get? "CO2" = some x)
    (hfb : d0.feedbackList = some ["dtemp"]) (hdt : ("dT_glob", "dtemp") ∈ tops.outputs)
    (hfirst : PubUtils.getFirstKey tops.outputs "dtemp" = .ok "dT_glob") :
    ∃ (P : Box.Pams F) (temp : ℕ → F) (tab : List (Column F)),
      boxPams g.carbon = .ok P ∧ carbonTable boxOut tops d1 true = .ok (some tab, d1) ∧
      tab.map Prod.fst = ["Net primary production", "Ocean carbon flux"] ∧
      ∀ n : ℕ, d0.nystart + n ≤ d0.nyend →
        entry d1.results "dT_glob" n = some (temp n) ∧
        cell tab "Net primary production" n =
          some (Box.calculateNpp P (i.concIn.cell "CO2" (d0.nystart + n)) (temp n)) ∧
        cell tab "Ocean carbon flux" n =
          some (Box.calculateOceanUptake P (i.concIn.cell "CO2" (d0.nystart + n)) (temp n)) := by
  have hle := ht.nonempty
  obtain ⟨f1, f2, f3, f4, f5, f6⟩ := run_frame law hout ht hc hd0 ha hr hg
  rw [hrun] at f3
  have hK := box_kept_after law hc hd0 (After.next ha hr) hg
  obtain ⟨P, hP⟩ := box_params hK.1
  obtain ⟨N, hNd⟩ : ∃ N, N = (d0.nyend - d0.nystart + 1).toNat := ⟨_, rfl⟩
  have hN : (d0.nyend + 1 - d0.nystart).toNat = N := by omega
  have hyl : g.years.length = N := by rw [f1, pyRange_length, hN]
  rw [← hNd] at f6
  obtain ⟨temp, htemp⟩ := temp_series (f6 "dT_glob" (List.mem_append_left _ (List.mem_map.2 ⟨_, hdt, rfl⟩)))
  have hser := series_of_entries (f6 "dT_glob" (List.mem_append_left _ (List.mem_map.2 ⟨_, hdt, rfl⟩))) htemp
  have hfs := feedbackSeries_dtemp hfirst hser
  have hcol : "CO2" ∈ i.concIn.cols := by
    obtain ⟨ns1, ne1, emis, clbr, prec, pre, k0, k, e1, e2, -, -, -, e6, -⟩ := construct_spec hc
    exact (frame_at'_eq_ok.1 e6).1
  have hgk : "CO2" ∈ g.gas.keys := by
    obtain ⟨h, emis, tr, H, hd, hsame, htr, hreset, hH, hyr⟩ := run_years law ht hc hd0 ha hr hg
    obtain ⟨b, luc, sun, r, values, vn, vs, Y, -⟩ := hyr d0.nystart (le_refl _) (by omega)
    rw [Y.keysG]
    exact (Dict.get?_isSome_iff _ _).1 ⟨x, hx⟩
  obtain ⟨c, hcm, hc1⟩ := reportConc_mem hgk f4
  have hcy : ∀ y, d0.nystart ≤ y → y ≤ d0.nyend → c.2 y = some (i.concIn.cell "CO2" y) := by
    intro y h1 h2
    have := C12_conc_run law hrun ht hc hd0 ha hr hg c hcm (by rw [hc1]; decide) (by rw [hc1]; exact hcol) y h1 h2
    rwa [hc1] at this
  have hconc := concSeries_run (g := g) (v := fun n : ℕ => i.concIn.cell "CO2" (d0.nystart + n)) f1 f4
    (by
      intro n hn
      exact reportConc_co2 hcm hc1 f4 (hcy (d0.nystart + n) (by omega) (by omega)))
  rw [hN] at hconc
  have htab : carbonTable boxOut tops d1 true = .ok (some
      [("Net primary production", some ((List.range N).map (fun n : ℕ =>
          Box.calculateNpp P (i.concIn.cell "CO2" (d0.nystart + n)) (temp n)))),
        ("Ocean carbon flux", some ((List.range N).map (fun n : ℕ =>
          Box.calculateOceanUptake P (i.concIn.cell "CO2" (d0.nystart + n)) (temp n))))], d1) := by
    unfold carbonTable
    rw [hg]
    simp only [f5, hfb, hfs, bind_ok, if_true]
    unfold carbonCycleData
    rw [hconc, bind_ok, f3, bind_ok]
    simp only [if_true]
    simp only [boxOut]
    rw [boxOutput_series hP hyl, bind_ok]
    simp only [pure_ok, bind_ok]
    have e : ({ d1 with source := .handler g, feedbackList := some ["dtemp"] } : Driver F (BoxM F)) = d1 := by
      rw [← hg, ← hfb, ← f5]
    exact congrArg (fun z => Except.ok (some _, z)) e
  have hget : ∀ (f : ℕ → F) (n : ℕ), n < N → ((List.range N).map f)[n]? = some (f n) := by
    intro f n hn
    rw [List.getElem?_map, List.getElem?_range hn]
    rfl
  refine ⟨P, temp, _, hP, htab, rfl, ?_⟩
  intro n hn
  refine ⟨htemp n (by omega), ?_, ?_⟩
  all_goals rw [cell_of rfl]; exact hget _ n (by omega)

/-- C82, direct calls: leaving out the temperature dictionary is the same as giving temperatures that are all zero, for
both carbon cycles, emission- and concentration-driven. For the box model a dictionary without temperatures does the
same. -/
theorem C82_no_temperature :
    (∀ (k : IR F) (years : List ℤ) (b : Bool) (conc : List F),
      irOutput k years b conc none = irOutput k years b conc (some [("dtemp", List.replicate years.length 0.0)])) ∧
    (∀ (k : BoxM F) (years : List ℤ) (b : Bool) (conc : List F),
      boxOutput k years b conc none = boxOutput k years b conc (some [("dtemp", List.replicate conc.length 0.0)])) ∧
    ∀ (k : BoxM F) (years : List ℤ) (b : Bool) (conc : List F) (fbs : Dict (List F)), "dtemp" ∉ fbs.keys →
      boxOutput k years b conc (some fbs) = boxOutput k years b conc none := by
  refine ⟨fun k years b conc => rfl, fun k years b conc => rfl, ?_⟩
  intro k years b conc fbs h
  unfold boxOutput
  rw [Option.bind_some, (get?_eq_none_iff _ _).2 h]
  rfl

end

/-! ## In exact arithmetic -/

section
variable {τ : Type}

theorem budget_year (A c0 O v0 v w f r e a b : ℝ) :
    2.123 * (A - c0) + O + (v + w - v0) + e =
      2.123 * (A + (e - b + w * r - a) / 2.123 * 1.0 - c0) + (O + b) +
        (v + (a - v * f) * 1.0 + (w + (v * f - w * r) * 1.0) - v0) := by
  norm_num
  ring

/-- C82, the budget of the run from its reported numbers: over any number of years after the first, the emissions equal
the increase of the atmosphere (2.123 PgC per ppm), the ocean fluxes reported for the years *before*, and the growth of
vegetation and soil. -/
theorem C82_budget {tops : ThermalOps ℝ τ} {d0 d d1 : Driver ℝ (BoxM ℝ)}
    {i : Inputs ℝ} {pamset carb : Option (Dict (PyVal ℝ))} {h0 g : Handler ℝ (BoxM ℝ)} {es : ℤ}
    {ps : List (RunPams ℝ)} {p : RunPams ℝ} {t : τ} (hgas : i.gas.keys.Nodup)
    (hout : (tops.outputs.map Prod.fst ++ forcOutputList).Nodup)
    (ht : RunTables i.concIn i.emis (Dict.set (Factory.checkPamset pamset) "conc_run" (.bool i.concRun))
      d0.nystart es d0.nyend)
    (hc : construct boxOps i pamset carb = .ok h0) (hd0 : d0.source = .handler h0)
    (ha : After boxOps tops d0 ps d) (hr : run boxOps tops d p = .ok (d1, t)) (hg : d1.source = .handler g)
    (hrun : i.concRun = false) {x : Gas ℝ} (hx : i.gas.get? "CO2" = some x) (hu : x.concUnit ≠ "-")
    (hfb : d0.feedbackList = some ["dtemp"]) (hdt : ("dT_glob", "dtemp") ∈ tops.outputs)
    (hfirst : PubUtils.getFirstKey tops.outputs "dtemp" = .ok "dT_glob") :
    ∃ (P : Box.Pams ℝ) (emis : Frame ℝ) (E : ℕ → ℝ) (T : ℕ → Option ℝ) (tab : List (Column ℝ)) (conc ocean land : ℕ → ℝ),
      perturbedEmis i = .ok emis ∧ YearlyCO2 emis x.natEm d0.nystart d0.nyend E ∧
      LastTemperature d1.results d0.nystart d0.nyend T ∧ boxPams g.carbon = .ok P ∧
      carbonTable boxOut tops d1 true = .ok (some tab, d1) ∧
      (∀ n, let s := Box.run P Box.reset ((List.range (n + 1)).map (fun j => (E j, T j)))
        land n = s.vegetation_carbon + s.soil_carbon) ∧
      ∀ n : ℕ, d0.nystart + n ≤ d0.nyend →
        (∃ c ∈ reportConc g, c.1 = "CO2" ∧ c.2 (d0.nystart + n) = some (conc n)) ∧
        cell tab "Ocean carbon flux" n = some (ocean n) ∧
        ∑ k ∈ Finset.range n, E (k + 1) =
          2.123 * (conc n - conc 0) + ∑ k ∈ Finset.range n, ocean k + (land n - land 0) := by
  obtain ⟨P, emis, E, T, ff, lu, temp, conc, tab, h1, h2, h3, h4, h5, h6, h7, h8, h9, -⟩ :=
    C82_run yearLaw_real hgas hout ht hc hd0 ha hr hg hrun hx hu hfb hdt hfirst
  refine ⟨P, emis, E, T, tab, conc, fun n => Box.calculateOceanUptake P (conc n) (temp n), _, h1, h2, h3, h4, h6,
    fun n => rfl, ?_⟩
  intro n
  induction n with
  | zero =>
    intro hn
    obtain ⟨-, -, a3, a4, a5⟩ := h9 0 hn
    refine ⟨?_, a5, by simp⟩
    have := h8 (d0.nystart + (0 : ℕ)) (by simp) hn
    simpa using this
  | succ n ih =>
    intro hn
    obtain ⟨-, -, -, -, b5⟩ := h9 (n + 1) hn
    have hn' : d0.nystart + (n : ℤ) ≤ d0.nyend := by push_cast at hn; omega
    obtain ⟨-, -, a3, a4, a5⟩ := h9 n hn'
    obtain ⟨-, -, hsum⟩ := ih hn'
    refine ⟨?_, b5, ?_⟩
    · have := h8 (d0.nystart + (n + 1 : ℕ)) (by push_cast; omega) hn
      rwa [show (d0.nystart + ((n + 1 : ℕ) : ℤ) - d0.nystart).toNat = n + 1 by omega] at this
    · have hT := h3.2 (d0.nystart + n) (by omega) hn'
      rw [show (d0.nystart + (n : ℤ) - d0.nystart).toNat = n by omega, a3] at hT
      rw [Finset.sum_range_succ, Finset.sum_range_succ, hsum]
      have hstep : Box.run P Box.reset ((List.range (n + 1 + 1)).map (fun j => (E j, T j))) =
          Box.co2em2conc P (Box.run P Box.reset ((List.range (n + 1)).map (fun j => (E j, T j)))) (E (n + 1)) (T (n + 1)) := by
        rw [List.range_succ, List.map_append]
        unfold Box.run
        rw [List.foldl_append]
        rfl
      have e1 := h5 n
      have e2 := h5 (n + 1)
      simp only
      rw [hstep] at e2 ⊢
      generalize Box.run P Box.reset ((List.range (n + 1)).map (fun j => (E j, T j))) = s at e1 e2 ⊢
      rw [e2, e1, hT]
      simp only [Box.co2em2conc, Box.ppmToPgC, Box.dtempOf, Option.getD_some]
      generalize Box.calculateNpp P s.atmospheric_co2 (temp n) = a
      generalize Box.calculateOceanUptake P s.atmospheric_co2 (temp n) = b
      exact budget_year _ _ _ _ _ _ _ _ _ _ _

end

/-! ## Examples -/

section
open Verif.Exec Verif.Model.ThermalInst

/-- The third of three emission-driven runs: the table exists, and the budget of the years 1999 to 2002 closes with the
ocean fluxes reported for 1998 to 2001. -/
example : ∃ (d1 : Driver ℝ (BoxM ℝ)) (tab : List (Column ℝ)) (E conc ocean land : ℕ → ℝ),
    carbonTable boxOut twoLayerOps d1 true = .ok (some tab, d1) ∧ cell tab "Ocean carbon flux" 3 = some (ocean 3) ∧
    E 1 + E 2 + E 3 + E 4 = 2.123 * (conc 4 - conc 0) + (ocean 0 + ocean 1 + ocean 2 + ocean 3) + (land 4 - land 0) := by
  obtain ⟨h0, d, d1, t, g, hc, ht, ha, hr, hg⟩ := rich_case false
  obtain ⟨P, emis, E, T, tab, conc, ocean, land, -, -, -, -, htab, -, h⟩ := C82_budget (d0 := richDriver h0)
    (rich_once false).1 twoLayer_names ht hc rfl ha hr hg rfl rich_co2 (by decide) rfl twoLayer_temperature twoLayer_first
  refine ⟨d1, tab, E, conc, ocean, land, htab, (h 3 (by simp [richDriver])).2.1, ?_⟩
  have := (h 4 (by simp [richDriver])).2.2
  simp only [Finset.sum_range_succ, Finset.sum_range_zero] at this
  linarith

/-- The same inputs driven by concentrations: two columns, and the rows are there. -/
example : ∃ (d1 : Driver ℝ (BoxM ℝ)) (tab : List (Column ℝ)) (v w : ℝ),
    carbonTable boxOut twoLayerOps d1 true = .ok (some tab, d1) ∧
    tab.map Prod.fst = ["Net primary production", "Ocean carbon flux"] ∧
    cell tab "Net primary production" 2 = some v ∧ cell tab "Ocean carbon flux" 2 = some w := by
  obtain ⟨h0, d, d1, t, g, hc, ht, ha, hr, hg⟩ := rich_case true
  obtain ⟨P, temp, tab, -, htab, hcol, h⟩ := C82_conc_run yearLaw_real (d0 := richDriver h0)
    twoLayer_names ht hc rfl ha hr hg rfl rich_co2 rfl twoLayer_temperature twoLayer_first
  obtain ⟨-, h1, h2⟩ := h 2 (by simp [richDriver])
  exact ⟨d1, tab, _, _, htab, hcol, h1, h2⟩

/-- A direct call with two concentrations and no temperatures: production and uptake at zero temperature. -/
example (k : BoxM ℝ) (P : Box.Pams ℝ) (hP : boxPams k = .ok P) :
    boxOutput k [1998, 1999] true [278, 400] none = .ok
      ([("Net primary production", some [Box.calculateNpp P 278 0.0, Box.calculateNpp P 400 0.0]),
        ("Ocean carbon flux", some [Box.calculateOceanUptake P 278 0.0, Box.calculateOceanUptake P 400 0.0])], k) := by
  rw [C82_no_temperature.2.1]
  exact boxOutput_series (N := 2) (conc := fun n => if n = 0 then 278 else 400) (temp := fun _ => 0.0) hP rfl

end
end Verif.Props
