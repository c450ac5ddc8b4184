import Verif.Props.C71
import Verif.Model.CarbonOut

/-! # The carbon table of a run, unfolded -/

namespace Verif.Props
open Verif.Py Verif.Py.Dict Verif.Model Verif.Model.Handler Verif.Model.Driver Verif.Spec
  Verif.Model.CarbonInst Verif.Model.CarbonOut

section
variable {F κ τ : Type} [Add F] [Sub F] [Mul F] [Div F] [Neg F] [OfScientific F] [LT F] [DecidableLT F]
  [MathFn F]

omit [Add F] [Sub F] [Mul F] [Div F] [Neg F] [OfScientific F] [LT F] [DecidableLT F] [MathFn F] in
theorem mapM_years {f : ℤ → Except PyErr F} {v : ℕ → F} {a b : ℤ}
    (h : ∀ n : ℕ, a + n < b → f (a + n) = .ok (v n)) :
    (pyRange a b).mapM f = .ok ((List.range (b - a).toNat).map v) := by
  rw [mapM_ok]
  unfold pyRange
  rw [List.map_map, List.map_map]
  apply List.map_congr_left
  intro n hn
  have := List.mem_range.1 hn
  exact h n (by omega)

omit [Add F] [Sub F] [Mul F] [Div F] [Neg F] [OfScientific F] [LT F] [DecidableLT F] [MathFn F] in
theorem series_of_entries {r : Dict (List F)} {o : String} {N : ℕ} {s : ℕ → F} (hl : len r o = some N)
    (h : ∀ n < N, entry r o n = some (s n)) : r.get? o = some ((List.range N).map s) := by
  unfold len at hl
  unfold entry at h
  cases hg : r.get? o with
  | none => rw [hg] at hl; cases hl
  | some a =>
    rw [hg] at hl h
    simp only [Option.map_some, Option.some.injEq, Option.bind_some] at hl h
    congr 1
    apply List.ext_getElem
    · simpa using hl
    · intro n h1 h2
      have := h n (by omega)
      rw [List.getElem?_eq_getElem h1, Option.some.injEq] at this
      simpa using this

/-- What is left of the inputs in the handler and the driver after a run. -/
theorem run_frame (law : YearLaw F) {cops : CarbonOps F κ} {tops : ThermalOps F τ} {d0 d d1 : Driver F κ}
    {i : Inputs F} {pamset carb : Option (Dict (PyVal F))} {h0 g : Handler F κ} {es : ℤ}
    {ps : List (RunPams F)} {p : RunPams F} {t : τ}
    (hout : (tops.outputs.map Prod.fst ++ forcOutputList).Nodup)
    (ht : RunTables i.concIn i.emis (Dict.set (Factory.checkPamset pamset) "conc_run" (.bool i.concRun))
      d0.nystart es d0.nyend)
    (hc : construct cops i pamset carb = .ok h0) (hd0 : d0.source = .handler h0)
    (ha : After cops tops d0 ps d) (hr : run cops tops d p = .ok (d1, t)) (hg : d1.source = .handler g) :
    g.years = pyRange d0.nystart (d0.nyend + 1) ∧ perturbedEmis i = .ok g.emis ∧
    pamB g.pam "conc_run" = .ok i.concRun ∧ "CO2" ∈ g.concKeys ∧ d1.feedbackList = d0.feedbackList ∧
    ∀ o ∈ tops.outputs.map Prod.fst ++ forcOutputList,
      len d1.results o = some (d0.nyend - d0.nystart + 1).toNat := by
  have hle := ht.nonempty
  obtain ⟨h, emis, tr, H, hd, hsame, htr, hreset, hH, hyr⟩ := run_years law ht hc hd0 ha hr hg
  obtain ⟨b, luc, sun, r, values, vn, vs, Y, -⟩ := hyr d0.nystart (le_refl _) (by omega)
  have s := (Y.sameB.trans Y.sameC).trans Y.sameG
  have hns : d.nystart = d0.nystart := by rw [hsame]
  have hne : d.nyend = d0.nyend := by rw [hsame]
  refine ⟨by rw [s.years, Y.years], by rw [s.emis, Y.emis, Y.emisE], by rw [s.pam, Y.run], ?_, ?_, ?_⟩
  · rw [(Y.sameC.trans Y.sameG).concKeys]
    exact conc2forc_co2Key Y.forc
  · obtain ⟨_, _, _, _, _, _, _, e⟩ := run_handler_spec hd hr
    rw [e, hsame]
  · intro o ho
    have h0 := (initialise_spec (startRun_spec htr.start).1).2 o ho
    rw [show d1.results = (tr (d.nyend + 1)).results by rw [htr.last.1]]
    refine htr.keep (fun s => len s.results o = some (d0.nyend - d0.nystart + 1).toNat) d.nystart (d.nyend + 1)
      (by omega) ?_ ?_
    · intro z h3 h4 e
      obtain ⟨f, vn, vs, values, -, -, -, -, -, ha⟩ := yearStep_spec (htr.step z (by omega) (by omega))
      rw [(addYearData_spec hout ha).1 o, e]
    · unfold len
      rw [h0]
      simp [hns, hne]

omit [Add F] [Mul F] [Sub F] [Div F] [Neg F] [OfScientific F] [LT F] [DecidableLT F] [MathFn F] in
/-- The CO2 column of the concentration table is the dictionary of the run. -/
theorem reportConc_co2 {g : Handler F κ} {c : String × (ℤ → Option F)} (hc : c ∈ reportConc g) (h1 : c.1 = "CO2")
    (hk : "CO2" ∈ g.concKeys) {y : ℤ} {v : F} (hy : c.2 y = some v) : g.conc "CO2" y = some v := by
  unfold reportConc at hc
  obtain ⟨k, -, rfl⟩ := List.mem_map.1 hc
  simp only at h1
  subst h1
  simp only [hk, if_true] at hy
  split at hy
  · exact hy
  · cases hy

omit [Add F] [Sub F] [Mul F] [Div F] [Neg F] [OfScientific F] [LT F] [DecidableLT F] [MathFn F] in
theorem feedbackSeries_dtemp {tops : ThermalOps F τ} {results : Dict (List F)} {a : List F}
    (hk : PubUtils.getFirstKey tops.outputs "dtemp" = .ok "dT_glob") (ha : results.get? "dT_glob" = some a) :
    feedbackSeries tops (some ["dtemp"]) results = .ok [("dtemp", a)] := by
  unfold feedbackSeries Dict.getE
  simp only [List.mapM_cons, List.mapM_nil, hk, bind_ok, ha, pure_ok]

omit [Add F] [Sub F] [Mul F] [Div F] [Neg F] [OfScientific F] [LT F] [DecidableLT F] [MathFn F] in
theorem concSeries_run {g : Handler F κ} {ns ne : ℤ} {v : ℕ → F} (hy : g.years = pyRange ns (ne + 1))
    (hk : "CO2" ∈ g.concKeys) (h : ∀ n : ℕ, ns + n < ne + 1 → g.conc "CO2" (ns + n) = some (v n)) :
    concSeries g "CO2" = .ok ((List.range (ne + 1 - ns).toNat).map v) := by
  unfold concSeries
  rw [if_pos hk, hy]
  apply mapM_years
  intro n hn
  rw [h n hn]

omit [Sub F] [Mul F] [Div F] [Neg F] [OfScientific F] [LT F] [DecidableLT F] [MathFn F] in
theorem emSeries_run {g : Handler F κ} {ns ne : ℤ} {ff lu : ℕ → F} (hy : g.years = pyRange ns (ne + 1))
    (h : ∀ n : ℕ, ns + n < ne + 1 → g.emis.at' "CO2_FF" (ns + n) = .ok (ff n) ∧
      g.emis.at' "CO2_AFOLU" (ns + n) = .ok (lu n)) :
    emSeries g = .ok ((List.range (ne + 1 - ns).toNat).map (fun n => ff n + lu n)) := by
  unfold emSeries
  rw [hy]
  apply mapM_years
  intro n hn
  rw [(h n hn).1, (h n hn).2]
  rfl

/-- The table of an emission run with the default carbon cycle. -/
theorem irOutput_emission {k : IR F} {P : Carbon.Pams F} {years : List ℤ} {conc dtemp : List F}
    (hP : irPams k = .ok P) (hi : 0 < P.idtm) (h1 : dtemp.length = years.length) (h2 : conc.length = years.length)
    (h3 : P.years_tot = years.length) :
    irOutput k years false conc (some [("dtemp", dtemp)]) = .ok
      ([("Biosphere carbon flux", some ((List.range years.length).map (Carbon.biosphereFlux P k.hold.dfnpp))),
       ("Ocean carbon flux", some ((List.range years.length).map (Carbon.oceanFlux P k.hold))),
       ("Mixed layer depth", some (dtemp.map (Carbon.mixedLayerTempFeedback P))),
       ("CO2 solubility", some (dtemp.map (Carbon.solubilityTempFeedback P))),
       ("Net Primary Production", some (dtemp.map (Carbon.fnppFromTemp P)))], k) := by
  have hid : ¬ k.idtm ≤ 0 := by
    have := (irPams_idtm hP).1; omega
  have hdt : irDtemp years.length (some [("dtemp", dtemp)]) = .ok dtemp := rfl
  unfold irOutput
  rw [hP, bind_ok, hdt, bind_ok, if_neg hid, if_neg (by simp [h1, h2, h3])]
  rfl

/-- The table of a concentration run with the default carbon cycle. -/
theorem irOutput_conc {k : IR F} {P : Carbon.Pams F} {years : List ℤ} {conc dtemp : List F}
    (hP : irPams k = .ok P) (hi : 0 < P.idtm) (h1 : dtemp.length = years.length) (h2 : conc.length = years.length)
    (h3 : P.years_tot = years.length) :
    irOutput k years true conc (some [("dtemp", dtemp)]) = .ok
      (let T := fun i => dtemp.getD i 0.0
       let back := BackCalc.backCalculate P k.hold conc T
       ([("Biosphere carbon flux", some ((List.range years.length).map
            (Carbon.biosphereFlux P (Carbon.dfnppOfConc P (fun i => conc.getD i 0.0) T)))),
         ("Ocean carbon flux", some ((List.range years.length).map (Carbon.oceanFlux P back.2))),
         ("Mixed layer depth", some (dtemp.map (Carbon.mixedLayerTempFeedback P))),
         ("CO2 solubility", some (dtemp.map (Carbon.solubilityTempFeedback P))),
         ("Net Primary Production", some (dtemp.map (Carbon.fnppFromTemp P))),
         ("Airborne fraction CO2", Carbon.airborneFraction back.1 conc P.preindustrial_co2_conc),
         ("Emissions", some back.1)], { k with hold := back.2 })) := by
  have hid : ¬ k.idtm ≤ 0 := by
    have := (irPams_idtm hP).1; omega
  have hdt : irDtemp years.length (some [("dtemp", dtemp)]) = .ok dtemp := rfl
  unfold irOutput
  rw [hP, bind_ok, hdt, bind_ok, if_neg hid, if_neg (by simp [h1, h2, h3])]
  rfl

end
end Verif.Props
