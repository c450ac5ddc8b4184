import Verif.Lemmas.CarbonRun
import Verif.Props.C18_C19
import Verif.Props.C22_C23
import Verif.Props.C63
import Verif.Props.C62
import Verif.Props.C06_run

/-!
# C71 — the carbon cycle of a coupled run is the stand-alone carbon cycle

An emission-driven run of the whole model, on a new instance or after any history, gives the CO2
concentrations the carbon cycle alone gives when started from its initial state and driven year by year
with the same emissions and the temperature reported for the year before. What is proved of the carbon
cycle alone (C18, C19, C22, C69, C70) thereby holds of the reported series: `C18_run`, `C19_run`, `C22_run`.
-/

namespace Verif.Props
open Verif.Py Verif.Py.Dict Verif.Model Verif.Model.Handler Verif.Model.Driver Verif.Spec
  Verif.Model.CarbonInst

section
variable {F κ τ : Type} [Add F] [Sub F] [Mul F] [Div F] [Neg F] [OfScientific F] [LT F] [DecidableLT F]
  [MathFn F]

/-- `E n` is what the emission table of the run says for the year with index `n`: fossil plus land use plus natural. -/
def YearlyCO2 (emis : Frame F) (nat : F) (ns ne : ℤ) (E : ℕ → F) : Prop :=
  ∀ y, ns ≤ y → y ≤ ne → ∃ ff lu, emis.at' "CO2_FF" y = .ok ff ∧ emis.at' "CO2_AFOLU" y = .ok lu ∧
    E (y - ns).toNat = ff + lu + nat

/-- `T n` is the temperature reported for the year before the one with index `n`; none for the first. -/
def LastTemperature (results : Dict (List F)) (ns ne : ℤ) (T : ℕ → Option F) : Prop :=
  T 0 = none ∧ ∀ y, ns ≤ y → y ≤ ne → T ((y - ns).toNat + 1) = entry results "dT_glob" (y - ns).toNat

theorem emissionOf_spec {cops : CarbonOps F κ} {emis : Frame F} {nat : F} {ns ne : ℤ} {state : ℤ → κ}
    {fb : ℤ → Option (Dict F)} {conc : ℤ → Option F} (h : SteppedThrough cops emis nat ns ne state fb conc) :
    YearlyCO2 emis nat ns ne (emissionOf emis nat ns) := by
  intro y h1 h2
  obtain ⟨ff, lu, v, a1, a2, -⟩ := h y h1 h2
  refine ⟨ff, lu, a1, a2, ?_⟩
  unfold emissionOf
  rw [show ns + ((y - ns).toNat : ℤ) = y by omega, a1, a2]

theorem dtempIn_spec {tops : ThermalOps F τ} {results : Dict (List F)} {ns ne : ℤ} {fb : ℤ → Option (Dict F)}
    {fl : List String} (hfl : "dtemp" ∈ fl) (hdt : ("dT_glob", "dtemp") ∈ tops.outputs)
    (h0 : fb ns = none)
    (h : ∀ y, ns ≤ y → y ≤ ne → ∃ values : Dict F, fb (y + 1) = feedbackDict (some fl) (some values) ∧
        ∀ o ∈ tops.outputs, ∃ v, values.get? o.2 = some v ∧ entry results o.1 (y - ns).toNat = some v) :
    LastTemperature results ns ne (fun n => dtempIn (fb (ns + n))) := by
  constructor
  · simp [h0, dtempIn]
  · intro y h1 h2
    obtain ⟨values, e1, e2⟩ := h y h1 h2
    simp only
    rw [show ns + (((y - ns).toNat + 1 : ℕ) : ℤ) = y + 1 by omega, e1]
    obtain ⟨v, hv, he⟩ := e2 _ hdt
    simp only at hv he
    rw [he]
    unfold dtempIn feedbackDict
    simp only [Option.bind_some]
    have key : ∀ l : List String, "dtemp" ∈ l →
        Dict.get? (l.map (fun k => (k, (Dict.get? values k).getD 0.0)) : Dict F) "dtemp" =
          some ((Dict.get? values "dtemp").getD 0.0) := by
      intro l
      induction l with
      | nil => intro h; cases h
      | cons a l ih =>
        intro h
        rw [List.map_cons, get?_cons]
        by_cases ha : a = "dtemp"
        · subst ha; rw [if_pos rfl]
        · rw [if_neg ha]
          exact ih ((List.mem_cons.1 h).resolve_left (fun e => ha e.symm))
    rw [key _ hfl, hv]
    rfl


/-- C71, the default carbon cycle. In every emission-driven run (any thermal model that reports the global
temperature, any history of the instance) there are emissions `E`, temperatures `T` and parameters `P` such that

* `E` is the emission table's fossil plus land use plus natural emission of each year and `T` the global temperature
  the run reports for the year before, none for the first;
* `P` are the parameters the run's carbon cycle holds;
* the reported CO2 concentration of every year is that of the carbon cycle alone with parameters `P`, from its
  initial state, after the years up to this one with emissions `E` and temperatures `T`;
* the carbon cycle object after the run is that of the carbon cycle alone after all years. -/
theorem C71_run (law : YearLaw F) {tops : ThermalOps F τ} {d0 d d1 : Driver F (IR F)}
    {i : Inputs F} {pamset carb : Option (Dict (PyVal F))} {h0 g : Handler F (IR F)} {es : ℤ}
    {ps : List (RunPams F)} {p : RunPams F} {t : τ} (hgas : i.gas.keys.Nodup)
    (hout : (tops.outputs.map Prod.fst ++ forcOutputList).Nodup)
    (ht : RunTables i.concIn i.emis (Dict.set (Factory.checkPamset pamset) "conc_run" (.bool i.concRun))
      d0.nystart es d0.nyend)
    (hc : construct irOps i pamset carb = .ok h0) (hd0 : d0.source = .handler h0)
    (ha : After irOps tops d0 ps d) (hr : run irOps tops d p = .ok (d1, t)) (hg : d1.source = .handler g)
    (hrun : i.concRun = false) {x : Gas F} (hx : i.gas.get? "CO2" = some x) (hu : x.concUnit ≠ "-")
    {fl : List String} (hfb : d0.feedbackList = some fl) (hfl : "dtemp" ∈ fl)
    (hdt : ("dT_glob", "dtemp") ∈ tops.outputs) :
    ∃ (P : Carbon.Pams F) (emis : Frame F) (E : ℕ → F) (T : ℕ → Option F),
      perturbedEmis i = .ok emis ∧ YearlyCO2 emis x.natEm d0.nystart d0.nyend E ∧
      LastTemperature d1.results d0.nystart d0.nyend T ∧
      irPams g.carbon = .ok P ∧ 0 < P.idtm ∧
      g.carbon.hold = Carbon.yearState P E T (Carbon.initState P) (d0.nyend - d0.nystart + 1).toNat ∧
      ∃ c ∈ reportConc g, c.1 = "CO2" ∧ ∀ y, d0.nystart ≤ y → y ≤ d0.nyend →
        c.2 y = some (Carbon.yearState P E T (Carbon.initState P) ((y - d0.nystart).toNat + 1)).xCO2 := by
  have hle := ht.nonempty
  obtain ⟨h, emis, state, fb, he, hd, h1, h2, h3, h4, c, hcm, hc1, hst⟩ :=
    C61_run law hgas hout ht hc hd0 ha hr hg hrun hx hu
  obtain ⟨hf, hst0, -, -⟩ := ir_construct (ns := d0.nystart) (ne := d0.nyend) hc
    (by have := ht.nystart; rwa [pamI_set (by decide)] at this)
    (by have := ht.nyend; rwa [pamI_set (by decide)] at this)
  obtain ⟨h', hd', hP, -, -⟩ := after_spec law hd0 ha (IRKept (ps.map (·.carbon)) h0.carbon)
    ⟨rfl, rfl, rfl, fun _ _ => Iff.rfl, fun _ _ => rfl, hf⟩
    (fun k y em fb r hP e => ir_step hP e)
    (fun p' hp' k k' hP e => ir_reset (List.mem_map_of_mem hp') hP e)
  rw [hd] at hd'
  cases hd'
  obtain ⟨P, hPp, hid, -, hy⟩ := ir_years (hP.nystart.trans hst0) hle h1 hst
  have hlast := hy (d0.nyend - d0.nystart).toNat (by omega)
  rw [show d0.nystart + ((d0.nyend - d0.nystart).toNat : ℤ) + 1 = d0.nyend + 1 by omega, ← h2] at hlast
  rw [hfb] at h4
  refine ⟨P, emis, emissionOf emis x.natEm d0.nystart, fun n => dtempIn (fb (d0.nystart + n)), he,
    emissionOf_spec hst, dtempIn_spec hfl hdt h3 h4, ?_, hid, ?_, c, hcm, hc1, ?_⟩
  · rw [hlast.1]; exact hPp
  · rw [hlast.1, show (d0.nyend - d0.nystart + 1).toNat = (d0.nyend - d0.nystart).toNat + 1 by omega]
    rfl
  · intro y a1 a2
    have := (hy (y - d0.nystart).toNat (by omega)).2
    rw [show d0.nystart + ((y - d0.nystart).toNat : ℤ) = y by omega] at this
    exact this

/-- C71, the box carbon cycle: the same with the pools of the box model. -/
theorem C71_run_box (law : YearLaw F) {tops : ThermalOps F τ} {d0 d d1 : Driver F (BoxM F)}
    {i : Inputs F} {pamset carb : Option (Dict (PyVal F))} {h0 g : Handler F (BoxM F)} {es : ℤ}
    {ps : List (RunPams F)} {p : RunPams F} {t : τ} (hgas : i.gas.keys.Nodup)
    (hout : (tops.outputs.map Prod.fst ++ forcOutputList).Nodup)
    (ht : RunTables i.concIn i.emis (Dict.set (Factory.checkPamset pamset) "conc_run" (.bool i.concRun))
      d0.nystart es d0.nyend)
    (hc : construct boxOps i pamset carb = .ok h0) (hd0 : d0.source = .handler h0)
    (ha : After boxOps tops d0 ps d) (hr : run boxOps tops d p = .ok (d1, t)) (hg : d1.source = .handler g)
    (hrun : i.concRun = false) {x : Gas F} (hx : i.gas.get? "CO2" = some x) (hu : x.concUnit ≠ "-")
    {fl : List String} (hfb : d0.feedbackList = some fl) (hfl : "dtemp" ∈ fl)
    (hdt : ("dT_glob", "dtemp") ∈ tops.outputs) :
    ∃ (P : Box.Pams F) (emis : Frame F) (E : ℕ → F) (T : ℕ → Option F),
      perturbedEmis i = .ok emis ∧ YearlyCO2 emis x.natEm d0.nystart d0.nyend E ∧
      LastTemperature d1.results d0.nystart d0.nyend T ∧ boxPams g.carbon = .ok P ∧
      (∀ y, d0.nystart ≤ y → y ≤ d0.nyend → ∃ c ∈ reportConc g, c.1 = "CO2" ∧
        c.2 y = some (Box.run P Box.reset
          ((List.range ((y - d0.nystart).toNat + 1)).map (fun j => (E j, T j)))).atmospheric_co2) ∧
      g.carbon.pools = Box.run P Box.reset
          ((List.range (d0.nyend - d0.nystart + 1).toNat).map (fun j => (E j, T j))) := by
  have hle := ht.nonempty
  obtain ⟨h, emis, state, fb, he, hd, h1, h2, h3, h4, c, hcm, hc1, hst⟩ :=
    C61_run law hgas hout ht hc hd0 ha hr hg hrun hx hu
  obtain ⟨P, hPp, hy⟩ := box_years hle h1 hst
  have hlast := hy (d0.nyend - d0.nystart).toNat (by omega)
  rw [show d0.nystart + ((d0.nyend - d0.nystart).toNat : ℤ) + 1 = d0.nyend + 1 by omega, ← h2] at hlast
  rw [hfb] at h4
  refine ⟨P, emis, emissionOf emis x.natEm d0.nystart, fun n => dtempIn (fb (d0.nystart + n)), he,
    emissionOf_spec hst, dtempIn_spec hfl hdt h3 h4, ?_, ?_, ?_⟩
  · rw [hlast.1]; exact hPp
  · intro y a1 a2
    have := (hy (y - d0.nystart).toNat (by omega)).2
    rw [show d0.nystart + ((y - d0.nystart).toNat : ℤ) = y by omega] at this
    exact ⟨c, hcm, hc1, this⟩
  · rw [hlast.1, show (d0.nyend - d0.nystart + 1).toNat = (d0.nyend - d0.nystart).toNat + 1 by omega]
    rfl

/-- The pre-industrial concentration in force is the CO2 concentration the concentration table has for the first year,
unless a run gave another one. -/
theorem C71_preindustrial (law : YearLaw F) {tops : ThermalOps F τ} {d0 d d1 : Driver F (IR F)}
    {i : Inputs F} {pamset carb : Option (Dict (PyVal F))} {h0 g : Handler F (IR F)} {es : ℤ}
    {ps : List (RunPams F)} {p : RunPams F} {t : τ} (hwf : WF (carb.getD []))
    (ht : RunTables i.concIn i.emis (Dict.set (Factory.checkPamset pamset) "conc_run" (.bool i.concRun))
      d0.nystart es d0.nyend)
    (hc : construct irOps i pamset carb = .ok h0) (hd0 : d0.source = .handler h0)
    (ha : After irOps tops d0 ps d) (hr : run irOps tops d p = .ok (d1, t)) (hg : d1.source = .handler g)
    (hno : ∀ q ∈ ps ++ [p], ¬ IRGives q.carbon "preindustrial_co2_conc") {P : Carbon.Pams F}
    (hP : irPams g.carbon = .ok P) : i.concIn.at' "CO2" d0.nystart = .ok P.preindustrial_co2_conc := by
  have hns : pamI (Factory.checkPamset pamset) "nystart" = .ok d0.nystart := by
    have := ht.nystart; rwa [pamI_set (by decide)] at this
  obtain ⟨hf, -, -, -⟩ := ir_construct (ns := d0.nystart) (ne := d0.nyend) hc hns
    (by have := ht.nyend; rwa [pamI_set (by decide)] at this)
  obtain ⟨h', hd', hK, -, -⟩ := after_spec law hd0 (After.next ha hr) (IRKept ((ps ++ [p]).map (·.carbon)) h0.carbon)
    ⟨rfl, rfl, rfl, fun _ _ => Iff.rfl, fun _ _ => rfl, hf⟩
    (fun k y em fb r hP e => ir_step hP e)
    (fun p' hp' k k' hP e => ir_reset (List.mem_map_of_mem hp') hP e)
  rw [hg] at hd'
  cases hd'
  obtain ⟨pre, e1, e2⟩ := ir_preindustrial hwf hns hc
  have h3 := hK.pam "preindustrial_co2_conc" (by
    intro _ q hq
    obtain ⟨p', hp', rfl⟩ := List.mem_map.1 hq
    exact hno p' hp')
  obtain ⟨-, -, -, -, h4, -⟩ := irPams_idtm hP
  unfold pamF Dict.getE at h4
  rw [h3, e2] at h4
  simp only [bind_ok, PyVal.toF, Except.ok.injEq] at h4
  rw [e1, h4]

/-- The parameters in force: what the constructor was given (if a number), the default otherwise, unless a run gave
another value. -/
theorem C71_parameters (law : YearLaw F) {tops : ThermalOps F τ} {d0 d d1 : Driver F (IR F)}
    {i : Inputs F} {pamset carb : Option (Dict (PyVal F))} {h0 g : Handler F (IR F)} {es : ℤ}
    {ps : List (RunPams F)} {p : RunPams F} {t : τ} (hwf : WF (carb.getD []))
    (ht : RunTables i.concIn i.emis (Dict.set (Factory.checkPamset pamset) "conc_run" (.bool i.concRun))
      d0.nystart es d0.nyend)
    (hc : construct irOps i pamset carb = .ok h0) (hd0 : d0.source = .handler h0)
    (ha : After irOps tops d0 ps d) (hr : run irOps tops d p = .ok (d1, t)) (hg : d1.source = .handler g)
    {x : String} {dflt : PyVal F} (hx : get? (irRequired (F := F)) x = some dflt) (hpre : x ≠ "preindustrial_co2_conc")
    (hno : ∀ q ∈ ps ++ [p], ¬ IRGives q.carbon x) :
    get? g.carbon.pam x =
      some (match get? (carb.getD []) x with | some w => if w.isNum = true then w else dflt | none => dflt) := by
  have hns : pamI (Factory.checkPamset pamset) "nystart" = .ok d0.nystart := by
    have := ht.nystart; rwa [pamI_set (by decide)] at this
  obtain ⟨hf, -, -, -⟩ := ir_construct (ns := d0.nystart) (ne := d0.nyend) hc hns
    (by have := ht.nyend; rwa [pamI_set (by decide)] at this)
  obtain ⟨h', hd', hK, -, -⟩ := after_spec law hd0 (After.next ha hr) (IRKept ((ps ++ [p]).map (·.carbon)) h0.carbon)
    ⟨rfl, rfl, rfl, fun _ _ => Iff.rfl, fun _ _ => rfl, hf⟩
    (fun k y em fb r hP e => ir_step hP e)
    (fun p' hp' k k' hP e => ir_reset (List.mem_map_of_mem hp') hP e)
  rw [hg] at hd'
  cases hd'
  rw [hK.pam x (by
    intro _ q hq
    obtain ⟨p', hp', rfl⟩ := List.mem_map.1 hq
    exact hno p' hp')]
  exact ir_parameter hwf hx hpre hc

end

/-! ## What this gives for whole runs, in exact arithmetic -/

section
variable {τ : Type}

theorem yearState_runFrom (P : Carbon.Pams ℝ) (E : ℕ → ℝ) (T : ℕ → Option ℝ) (n : ℕ) :
    Carbon.yearState P E T (Carbon.initState P) n =
      Carbon.runFrom P (Carbon.initState P) 0 ((List.range n).map (fun j => (E j, T j))) := by
  have := Carbon.yearState_succ_shift P E T (Carbon.initState P) ((List.range n).map (fun j => (E j, T j))) 0
    (by intro i h; simp) (by intro i h; simp)
  rw [List.length_map, List.length_range, zero_add] at this
  rw [← this]
  rfl

/-- C18 for whole runs: if in every year fossil, land use and natural emissions of CO2 add up to zero, every year's
reported CO2 concentration is exactly the first one of the concentration table, whatever the temperature does
and whatever carbon parameters and runs came before. -/
theorem C18_run {tops : ThermalOps ℝ τ} {d0 d d1 : Driver ℝ (IR ℝ)}
    {i : Inputs ℝ} {pamset carb : Option (Dict (PyVal ℝ))} {h0 g : Handler ℝ (IR ℝ)} {es : ℤ}
    {ps : List (RunPams ℝ)} {p : RunPams ℝ} {t : τ} (hgas : i.gas.keys.Nodup)
    (hout : (tops.outputs.map Prod.fst ++ forcOutputList).Nodup)
    (ht : RunTables i.concIn i.emis (Dict.set (Factory.checkPamset pamset) "conc_run" (.bool i.concRun))
      d0.nystart es d0.nyend)
    (hc : construct irOps i pamset carb = .ok h0) (hd0 : d0.source = .handler h0)
    (ha : After irOps tops d0 ps d) (hr : run irOps tops d p = .ok (d1, t)) (hg : d1.source = .handler g)
    (hrun : i.concRun = false) {x : Gas ℝ} (hx : i.gas.get? "CO2" = some x) (hu : x.concUnit ≠ "-")
    {fl : List String} (hfb : d0.feedbackList = some fl) (hfl : "dtemp" ∈ fl)
    (hdt : ("dT_glob", "dtemp") ∈ tops.outputs) (hwf : WF (carb.getD []))
    (hno : ∀ q ∈ ps ++ [p], ¬ IRGives q.carbon "preindustrial_co2_conc")
    {pre : ℝ} (hpre : i.concIn.at' "CO2" d0.nystart = .ok pre) (hp0 : pre ≠ 0)
    (hzero : ∀ emis y ff lu, perturbedEmis i = .ok emis → d0.nystart ≤ y → y ≤ d0.nyend →
      emis.at' "CO2_FF" y = .ok ff → emis.at' "CO2_AFOLU" y = .ok lu → ff + lu + x.natEm = 0) :
    ∃ c ∈ reportConc g, c.1 = "CO2" ∧ ∀ y, d0.nystart ≤ y → y ≤ d0.nyend → c.2 y = some pre := by
  obtain ⟨P, emis, E, T, he, hE, -, hP, -, -, c, hcm, hc1, hy⟩ :=
    C71_run yearLaw_real hgas hout ht hc hd0 ha hr hg hrun hx hu hfb hfl hdt
  have hpP := C71_preindustrial yearLaw_real hwf ht hc hd0 ha hr hg hno hP
  rw [hpre, Except.ok.injEq] at hpP
  refine ⟨c, hcm, hc1, ?_⟩
  intro y a1 a2
  rw [hy y a1 a2, yearState_runFrom, C18_zero_emissions_fresh P (by rw [← hpP]; exact hp0), hpP]
  intro j hj
  obtain ⟨n, hn, rfl⟩ := List.mem_map.1 hj
  rw [List.mem_range] at hn
  obtain ⟨ff, lu, b1, b2, b3⟩ := hE (d0.nystart + n) (by omega) (by omega)
  rw [show (d0.nystart + (n : ℤ) - d0.nystart).toNat = n by omega] at b3
  rw [b3]
  exact hzero emis _ ff lu he (by omega) (by omega) b1 b2

/-- C22 for whole runs with the box carbon cycle: at the end of every run the carbon in the five pools is the
pre-industrial content plus all emissions of the run (fossil, land use and natural, perturbations included). -/
theorem C22_run {tops : ThermalOps ℝ τ} {d0 d d1 : Driver ℝ (BoxM ℝ)}
    {i : Inputs ℝ} {pamset carb : Option (Dict (PyVal ℝ))} {h0 g : Handler ℝ (BoxM ℝ)} {es : ℤ}
    {ps : List (RunPams ℝ)} {p : RunPams ℝ} {t : τ} (hgas : i.gas.keys.Nodup)
    (hout : (tops.outputs.map Prod.fst ++ forcOutputList).Nodup)
    (ht : RunTables i.concIn i.emis (Dict.set (Factory.checkPamset pamset) "conc_run" (.bool i.concRun))
      d0.nystart es d0.nyend)
    (hc : construct boxOps i pamset carb = .ok h0) (hd0 : d0.source = .handler h0)
    (ha : After boxOps tops d0 ps d) (hr : run boxOps tops d p = .ok (d1, t)) (hg : d1.source = .handler g)
    (hrun : i.concRun = false) {x : Gas ℝ} (hx : i.gas.get? "CO2" = some x) (hu : x.concUnit ≠ "-")
    {fl : List String} (hfb : d0.feedbackList = some fl) (hfl : "dtemp" ∈ fl)
    (hdt : ("dT_glob", "dtemp") ∈ tops.outputs) :
    ∃ (emis : Frame ℝ) (E : ℕ → ℝ), perturbedEmis i = .ok emis ∧ YearlyCO2 emis x.natEm d0.nystart d0.nyend E ∧
      totalCarbon g.carbon.pools = 2.123 * 278 + 600 + 3000 +
        ∑ n ∈ Finset.range (d0.nyend - d0.nystart + 1).toNat, E n := by
  obtain ⟨P, emis, E, T, he, hE, -, -, -, hpools⟩ :=
    C71_run_box yearLaw_real hgas hout ht hc hd0 ha hr hg hrun hx hu hfb hfl hdt
  refine ⟨emis, E, he, hE, ?_⟩
  rw [hpools, C22_conservation, List.map_map]
  have : ∀ n, ((List.range n).map (Prod.fst ∘ fun j => (E j, T j))).sum = ∑ j ∈ Finset.range n, E j := by
    intro n
    rw [Finset.sum_range]
    induction n with
    | zero => simp
    | succ n ih =>
      rw [List.range_succ, List.map_append, List.sum_append, ih, Fin.sum_univ_castSucc]
      simp
  rw [this]
  norm_num [totalCarbon, Box.reset]

end

/-! ## The hypotheses are met -/

section
open Verif.Exec Verif.Model.ThermalInst

/-- The third of the three runs in a row with the default carbon cycle. -/
theorem rich_case_default (b : Bool) : ∃ h0 d d1 t g, construct irOps (richInputs b) richPam none = .ok h0 ∧
    RunTables (richInputs b).concIn (richInputs b).emis
      (Dict.set (Factory.checkPamset richPam) "conc_run" (.bool (richInputs b).concRun)) 1998 2000 2003 ∧
    After irOps twoLayerOps (richDriver h0) (richRuns.take 2) d ∧
    run irOps twoLayerOps d ⟨none, none, some [("beta_f", .flt 1)]⟩ = .ok (d1, t) ∧ d1.source = .handler g := by
  obtain ⟨h0, d1, hc, ha⟩ := rich_after_default b
  obtain ⟨p1, p2, p3, -⟩ := rich_pams
  obtain ⟨ps, hps⟩ : ∃ ps, richRuns = ps := ⟨_, rfl⟩
  rw [hps] at ha
  cases ha with
  | fresh => simp [richRuns] at hps
  | @next ps p d d1 t hprev hr =>
    have h2 : richRuns = richRuns.take 2 ++ [⟨none, none, some [("beta_f", .flt 1)]⟩] := rfl
    rw [h2] at hps
    obtain ⟨e1, e2⟩ := List.append_inj' hps rfl
    rw [List.cons.injEq] at e2
    obtain ⟨h, hd, -⟩ := after_spec yearLaw_real (rfl : (richDriver h0).source = .handler h0) hprev (fun _ => True)
      trivial (fun _ _ _ _ _ _ _ => trivial) (fun _ _ _ _ _ _ => trivial)
    obtain ⟨g0, g, -, hg, -⟩ := run_handler_spec hd hr
    refine ⟨h0, d, d1, t, g, hc, (rich_tables b).run p1 p2 p3, ?_, ?_, hg⟩
    · rw [e1]; exact hprev
    · rw [e2.1]; exact hr

theorem rich_co2 : Dict.get? richGas "CO2" = some ⟨"ppm", 1, 2, 1, 0, 0, 0, 1⟩ := rfl

/-- The third of three emission-driven runs with aerosols, ozone and an emission perturbation in 2001: the emissions
the carbon cycle gets in 2001 are 11 fossil and 11 land use and the perturbation of 3; the reported concentrations are
those of the stand-alone carbon cycle. -/
example : ∃ (d1 : Driver ℝ (IR ℝ)) (g : Handler ℝ (IR ℝ)) (P : Carbon.Pams ℝ) (E : ℕ → ℝ) (T : ℕ → Option ℝ),
    d1.source = .handler g ∧ E 3 = 25 ∧ T 0 = none ∧ T 4 = entry d1.results "dT_glob" 3 ∧
    ∃ c ∈ reportConc g, c.1 = "CO2" ∧ c.2 2001 = some (Carbon.yearState P E T (Carbon.initState P) 4).xCO2 := by
  obtain ⟨h0, d, d1, t, g, hc, ht, ha, hr, hg⟩ := rich_case_default false
  obtain ⟨P, emis, E, T, he, hE, hT, -, -, -, c, hcm, hc1, hy⟩ := C71_run (d0 := richDriver h0) yearLaw_real
    (rich_once false).1 twoLayer_names ht hc rfl ha hr hg rfl rich_co2 (by decide) (fl := ["dtemp"]) rfl (by simp)
    (by simp [twoLayerOps, twoLayerOutputs])
  refine ⟨d1, g, P, E, T, hg, ?_, hT.1, hT.2 2001 (by simp [richDriver]) (by simp [richDriver]), c, hcm, hc1,
    hy 2001 (by simp [richDriver]) (by simp [richDriver])⟩
  obtain ⟨ff, lu, e1, e2, e3⟩ := hE 2001 (by simp [richDriver]) (by simp [richDriver])
  have e4 : E 3 = ff + lu + 0 := e3
  have hy : (2001 : ℤ) ∈ (richInputs false).emis.idx := by simp [richInputs, mem_pyRange]
  have f1 := ((frame_at'_eq_ok.1 e1).2.2).symm
  have f2 := ((frame_at'_eq_ok.1 e2).2.2).symm
  rw [(perturbedEmis_spec he).2.2 _ _ hy] at f1 f2
  rw [e4, f1, f2]
  simp [usedEmis, richInputs, emissionTarget]
  norm_num

/-- The same tables with land use taking up what fossil sources emit, and no perturbation of emissions. -/
noncomputable def restInputs : Inputs ℝ :=
  { richInputs false with
    emis := { (richInputs false).emis with
      cell := fun c y => if c = "CO2_AFOLU" then -(y - 1990 : ℤ) else (y - 1990 : ℤ) }
    pertEm := none }

theorem rest_tables : CompleteTables restInputs 1998 2000 2003 2010 :=
  { rich_tables false with pertEm := by intro rows h; cases h }

/-- Such a run meets the hypotheses of `C18_run`: 303 ppm (the table's value for 1998) in every year. -/
example : ∃ (d1 : Driver ℝ (IR ℝ)) (g : Handler ℝ (IR ℝ)), d1.source = .handler g ∧
    ∃ c ∈ reportConc g, c.1 = "CO2" ∧ ∀ y, 1998 ≤ y → y ≤ 2003 → c.2 y = some 303 := by
  obtain ⟨h1, h2, h3, h4, h5⟩ := rich_pams
  obtain ⟨h0, hc, h⟩ := C63_default (i := restInputs) (carb := none) yearLaw_real rich_gases rest_tables h1 h2 h3 h4
    (by decide) (.absent (by decide)) (by simp)
  obtain ⟨d1, hd⟩ := h (richDriver h0) [⟨none, none, none⟩] rfl rfl rfl (rich_series h0) (by
    intro p hp
    rw [List.mem_singleton] at hp
    subst hp
    exact ⟨h5, .absent (by decide), by simp⟩)
  obtain ⟨ps, hps⟩ : ∃ ps, [(⟨none, none, none⟩ : RunPams ℝ)] = ps := ⟨_, rfl⟩
  rw [hps] at hd
  cases hd with
  | fresh => cases hps
  | @next ps p d d1 t hprev hr =>
    have hps' : ([] : List (RunPams ℝ)) ++ [⟨none, none, none⟩] = ps ++ [p] := hps
    obtain ⟨e1, e2⟩ := List.append_inj' hps' rfl
    subst e1
    rw [List.cons.injEq] at e2
    obtain ⟨e2, -⟩ := e2
    subst e2
    obtain ⟨h', hd', -⟩ := after_spec yearLaw_real (rfl : (richDriver h0).source = .handler h0) hprev (fun _ => True)
      trivial (fun _ _ _ _ _ _ _ => trivial) (fun _ _ _ _ _ _ => trivial)
    obtain ⟨g0, g, -, hg, -⟩ := run_handler_spec hd' hr
    refine ⟨d1, g, hg, ?_⟩
    refine C18_run (d0 := richDriver h0) (i := restInputs) (rich_once false).1 twoLayer_names
      (rest_tables.run h1 h2 h3) hc rfl hprev hr hg rfl rich_co2 (by decide) (fl := ["dtemp"]) rfl (by simp)
      (by simp [twoLayerOps, twoLayerOutputs]) (by simp [WF, Dict.keys]) ?_ (pre := 303) ?_ (by norm_num) ?_
    · intro q hq
      rw [List.nil_append, List.mem_singleton] at hq
      subst hq
      rintro ⟨a, b, hab, -⟩
      cases hab
    · simp [restInputs, richInputs, richDriver, Frame.at', mem_pyRange]
      norm_num
    · intro emis y ff lu he h1 h2 e1 e2
      have : emis = restInputs.emis := by simpa [perturbedEmis, restInputs] using he.symm
      subst this
      rw [← (frame_at'_eq_ok.1 e1).2.2, ← (frame_at'_eq_ok.1 e2).2.2]
      simp [restInputs]

/-- `C22_run` on the third of three runs. -/
example : ∃ (g : Handler ℝ (BoxM ℝ)) (E : ℕ → ℝ), E 3 = 25 ∧
    totalCarbon g.carbon.pools = 2.123 * 278 + 600 + 3000 + ∑ n ∈ Finset.range 6, E n := by
  obtain ⟨h0, d, d1, t, g, hc, ht, ha, hr, hg⟩ := rich_case false
  obtain ⟨emis, E, he, hE, htot⟩ := C22_run (d0 := richDriver h0) (rich_once false).1 twoLayer_names ht hc rfl ha hr hg
    rfl rich_co2 (by decide) (fl := ["dtemp"]) rfl (by simp) (by simp [twoLayerOps, twoLayerOutputs])
  refine ⟨g, E, ?_, htot⟩
  obtain ⟨ff, lu, e1, e2, e3⟩ := hE 2001 (by simp [richDriver]) (by simp [richDriver])
  have e4 : E 3 = ff + lu + 0 := e3
  have hy : (2001 : ℤ) ∈ (richInputs false).emis.idx := by simp [richInputs, mem_pyRange]
  have f1 := ((frame_at'_eq_ok.1 e1).2.2).symm
  have f2 := ((frame_at'_eq_ok.1 e2).2.2).symm
  rw [(perturbedEmis_spec he).2.2 _ _ hy] at f1 f2
  rw [e4, f1, f2]
  simp [usedEmis, richInputs, emissionTarget]
  norm_num

end
end Verif.Props
