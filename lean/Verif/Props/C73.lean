import Verif.Props.C72
import Verif.Props.C12
import Verif.Lemmas.Asked

/-!
# C73 — the carbon cycle table of a concentration-driven run

The emissions it reports are those which, run forward through the default carbon cycle, give the prescribed
concentrations, within the tolerance of the search (`C73_run`); the ocean flux is that of this forward run. Asking for
it has no influence on any later run (`C73_observation`). The reported land flux is not that of the forward run, so the
budget of the reported numbers does not close (`C73_land_false`).
-/

namespace Verif.Props
open Verif.Py Verif.Py.Dict Verif.Model Verif.Model.Handler Verif.Model.Driver Verif.Spec
  Verif.Model.CarbonInst Verif.Model.CarbonOut

section
variable {F κ τ : Type} [Add F] [Sub F] [Mul F] [Div F] [Neg F] [OfScientific F] [LT F] [DecidableLT F]
  [MathFn F]

/-! ## The carbon cycle of any instance has all its numbers -/

omit [Add F] [Sub F] [Mul F] [Div F] [Neg F] [LT F] [DecidableLT F] [MathFn F] in
theorem numeric_irNewPam {pam new : Dict (PyVal F)} (h : Numeric pam (irRequired (F := F)).keys) :
    Numeric (irNewPam pam new) (irRequired (F := F)).keys := by
  unfold irNewPam
  have h1 : Numeric (updatePamIfNumeric pam (some new) (irRequired (F := F)).keys) (irRequired (F := F)).keys :=
    Numeric.update h _ _
  have key : ∀ {p : Dict (PyVal F)} {x : String}, x ∉ (irRequired (F := F)).keys →
      Numeric p (irRequired (F := F)).keys → Numeric (takeFunction new p x) (irRequired (F := F)).keys := by
    intro p x hx hp
    unfold takeFunction
    split
    · exact hp.set _ (Or.inr hx)
    · exact hp
  rw [List.foldl_cons, List.foldl_cons, List.foldl_nil]
  refine key ?_ (key ?_ h1) <;> rw [irRequired_keys] <;> decide

theorem numeric_irPams {k : IR F} (hk : Numeric k.pam (irRequired (F := F)).keys) : ∃ P, irPams k = .ok P := by
  have h : ∀ x ∈ (irRequired (F := F)).keys, ∃ v : F, Handler.pamF k.pam x = .ok v := fun x hx => Numeric.pamF hk hx
  simp only [irRequired, Dict.keys, List.map_cons, List.map_nil] at h
  obtain ⟨v1, h1⟩ := h "beta_f" (by simp)
  obtain ⟨v2, h2⟩ := h "mixed_carbon" (by simp)
  obtain ⟨v3, h3⟩ := h "ml_w_sigmoid" (by simp)
  obtain ⟨v4, h4⟩ := h "ml_fracmax" (by simp)
  obtain ⟨v5, h5⟩ := h "ml_t_half" (by simp)
  obtain ⟨v6, h6⟩ := h "t_half" (by simp)
  obtain ⟨v7, h7⟩ := h "w_sigmoid" (by simp)
  obtain ⟨v8, h8⟩ := h "t_threshold" (by simp)
  obtain ⟨v9, h9⟩ := h "w_threshold" (by simp)
  obtain ⟨v10, h10⟩ := h "solubility_sens" (by simp)
  obtain ⟨v11, h11⟩ := h "solubility_limit" (by simp)
  obtain ⟨v12, h12⟩ := h "ml_depth_min" (by simp)
  obtain ⟨v13, h13⟩ := h "preindustrial_co2_conc" (by simp)
  unfold irPams
  rw [h1, bind_ok, h2, bind_ok, h3, bind_ok, h4, bind_ok, h5, bind_ok, h6, bind_ok, h7, bind_ok, h8, bind_ok,
    h9, bind_ok, h10, bind_ok, h11, bind_ok, h12, bind_ok, h13, bind_ok]
  exact ⟨_, rfl⟩

theorem numeric_reset {k k' : IR F} {q : Option (Dict (PyVal F))} (hk : Numeric k.pam (irRequired (F := F)).keys)
    (e : irReset k q = .ok k') : Numeric k'.pam (irRequired (F := F)).keys := by
  obtain ⟨-, -, -, -, -, hh⟩ := irReset_spec e
  rcases hh with ⟨-, hh⟩ | ⟨_, _, -, -, hh⟩ <;> rw [hh]
  · exact hk
  · exact numeric_irNewPam hk

theorem numeric_construct {i : Inputs F} {pamset carb : Option (Dict (PyVal F))} {h0 : Handler F (IR F)}
    (hc : construct irOps i pamset carb = .ok h0) : Numeric h0.carbon.pam (irRequired (F := F)).keys := by
  obtain ⟨ns1, ne1, emis, clbr, prec, pre, k0, k, e1, e2, -, -, -, e6, e7, e8, rfl⟩ := construct_spec hc
  simp only [irOps] at e8
  refine numeric_reset (k' := k) ?_ e8
  simp only [irOps, irCreate, bind_eq_ok] at e7
  obtain ⟨p, hp, pam, hpam, idtm, t1, ns, t2, ne, t3, e7⟩ := e7
  have hpm : pam = cutAndCheckPamset irRequired p irUsed := by
    unfold takeOutMissing at hpam
    split at hpam
    · cases hpam
    · exact (Except.ok.inj hpam).symm
  split at e7
  · cases e7
  · simp only [bind_eq_ok] at e7
    obtain ⟨mixed, _, m, hm, e7⟩ := e7
    obtain ⟨-, hk0⟩ := precalcR_spec e7
    rw [show k0.pam = m.pam by rw [hk0]]
    refine numeric_reset (k' := m) ?_ hm
    simp only
    rw [hpm]
    exact numeric_cut irRequired_wf irRequired_num

/-! ## A list of emissions run forward -/

theorem forward_append (P : Carbon.Pams F) (fb : ℕ → Option F) (es : List F) : ∀ (st : Carbon.State F) (y : ℕ) (e : F),
    forward P fb st y (es ++ [e]) =
      Carbon.co2em2conc P (forward P fb st y es) (y + es.length) e (fb (y + es.length)) := by
  induction es with
  | nil => intro st y e; rfl
  | cons a es ih =>
    intro st y e
    rw [List.cons_append, forward, forward, ih, List.length_cons, show y + 1 + es.length = y + (es.length + 1) by omega]

theorem forward_take (P : Carbon.Pams F) (fb : ℕ → Option F) (st : Carbon.State F) (es : List F) (z : F) {n : ℕ}
    (hn : n ≤ es.length) : forward P fb st 0 (es.take n) = Carbon.yearState P (fun k => es.getD k z) fb st n := by
  induction n with
  | zero => rfl
  | succ n ih =>
    rw [List.take_add_one, List.getElem?_eq_getElem (by omega), Option.toList_some, forward_append, ih (by omega),
      List.length_take, Nat.min_eq_left (by omega), Nat.zero_add, Carbon.yearState]
    rw [List.getD_eq_getElem?_getD, List.getElem?_eq_getElem (by omega)]
    rfl

/-- A year's state from the second on does not depend on where the concentration of the state before the run was. -/
theorem yearState_fresh {P : Carbon.Pams F} (hi : 0 < P.idtm) {st : Carbon.State F} (h : HoldEq zeroHold st) (E : ℕ → F)
    (T : ℕ → Option F) (n : ℕ) :
    Carbon.yearState P E T st (n + 1) = Carbon.yearState P E T (Carbon.initState P) (n + 1) := by
  induction n with
  | zero =>
    rw [Carbon.yearState, Carbon.yearState, Carbon.yearState, Carbon.yearState]
    refine co2em2conc_congr P ?_ 0 _ _ hi (fun h => absurd h (lt_irrefl _))
    exact ⟨h.yCO2, h.sCO2, h.emCO2_prev, h.dfnpp, h.ss1, h.sums⟩
  | succ n ih => rw [Carbon.yearState, ih]; rfl

omit [Add F] [Sub F] [Mul F] [Div F] [Neg F] [OfScientific F] [LT F] [DecidableLT F] [MathFn F] in
theorem reportConc_mem {g : Handler F κ} (h1 : "CO2" ∈ g.gas.keys) (h2 : "CO2" ∈ g.concKeys) :
    ∃ c ∈ reportConc g, c.1 = "CO2" := by
  unfold reportConc
  exact ⟨_, List.mem_map.2 ⟨"CO2", List.mem_filter.2 ⟨h1, by simp [h2]⟩, rfl⟩, rfl⟩

theorem yearState_fb (P : Carbon.Pams F) (E : ℕ → F) (T : ℕ → Option F) (st : Carbon.State F) (n : ℕ) :
    (Carbon.yearState P E T st (n + 1)).mlFb = Carbon.mixedLayerTempFeedback P ((T n).getD 0.0) ∧
    (Carbon.yearState P E T st (n + 1)).solFb = Carbon.solubilityTempFeedback P ((T n).getD 0.0) := by
  rw [Carbon.yearState, Carbon.co2em2conc]
  have key : ∀ (l : List ℕ) (s : Carbon.State F) (f : F) (k : ℕ),
      (l.foldl (fun st i => Carbon.subStep P f (E n) st (k + i)) s).mlFb = s.mlFb ∧
      (l.foldl (fun st i => Carbon.subStep P f (E n) st (k + i)) s).solFb = s.solFb := by
    intro l
    induction l with
    | nil => intro s f k; exact ⟨rfl, rfl⟩
    | cons a l ih =>
      intro s f k
      rw [List.foldl_cons]
      obtain ⟨h1, h2⟩ := ih (Carbon.subStep P f (E n) s (k + a)) f k
      rw [h1, h2]
      have hs := Carbon.subStep_spec P f (E n) s (k + a)
      exact ⟨hs.mlFb, hs.solFb⟩
  exact key _ _ _ _

/-- The search for the first year's emission from the state a reset leaves and from the initial state. -/
theorem guess_fresh {P : Carbon.Pams F} (hi : 0 < P.idtm) {st : Carbon.State F} (h : HoldEq zeroHold st) (target : F)
    (mm : F × F) (fb : Option F) (rtol : F) (maxit : ℕ) :
    BackCalc.guessEmissions (BackCalc.defaultModel P) st target mm 0 fb rtol maxit =
      BackCalc.guessEmissions (BackCalc.defaultModel P) (Carbon.initState P) target mm 0 fb rtol maxit := by
  have key : ∀ (n : ℕ) (a b : F) (r : BackCalc.Found (Carbon.State F) F),
      BackCalc.bisectLoop (BackCalc.defaultModel P) 0 fb (Carbon.getHold st) target rtol n a b r =
      BackCalc.bisectLoop (BackCalc.defaultModel P) 0 fb (Carbon.getHold (Carbon.initState P)) target rtol n a b r := by
    intro n
    induction n with
    | zero => intro a b r; rfl
    | succ n ih =>
      intro a b r
      have hs : ∀ g : F, Carbon.co2em2conc P (Carbon.setHold r.state (Carbon.getHold st)) 0 g fb =
          Carbon.co2em2conc P (Carbon.setHold r.state (Carbon.getHold (Carbon.initState P))) 0 g fb := by
        intro g
        refine co2em2conc_congr P ?_ 0 _ _ hi (fun h => absurd h (lt_irrefl _))
        exact ⟨h.yCO2, rfl, h.emCO2_prev, rfl, h.ss1, h.sums⟩
      have hs' : ∀ g : F, (BackCalc.defaultModel P).co2em2conc
          ((BackCalc.defaultModel P).setHold r.state (Carbon.getHold st)) 0 g fb =
          (BackCalc.defaultModel P).co2em2conc ((BackCalc.defaultModel P).setHold r.state
            (Carbon.getHold (Carbon.initState P))) 0 g fb := hs
      rw [BackCalc.bisectLoop, BackCalc.bisectLoop]
      simp only [hs', ih]
  have h0 : ∀ g : F, Carbon.co2em2conc P st 0 g fb = Carbon.co2em2conc P (Carbon.initState P) 0 g fb := by
    intro g
    refine co2em2conc_congr P ?_ 0 _ _ hi (fun h => absurd h (lt_irrefl _))
    exact ⟨h.yCO2, h.sCO2, h.emCO2_prev, h.dfnpp, h.ss1, h.sums⟩
  unfold BackCalc.guessEmissions
  simp only [BackCalc.defaultModel] at key ⊢
  rw [key, h0]

theorem backCalculate_fresh {P : Carbon.Pams F} (hi : 0 < P.idtm) {st : Carbon.State F} (h : HoldEq zeroHold st)
    {concs : List F} (hc : concs ≠ []) (dtemp : ℕ → F) :
    BackCalc.backCalculate P st concs dtemp = BackCalc.backCalculate P (Carbon.initState P) concs dtemp := by
  obtain ⟨c, cs, rfl⟩ := List.exists_cons_of_ne_nil hc
  unfold BackCalc.backCalculate
  simp only [BackCalc.backLoop]
  rw [guess_fresh hi h]

/-- The search for the emission of year `n`, given the concentrations `conc` and temperatures `temp` of the `N` years of
the run, starting from the state `st` at the end of the year before, used up its hundred further guesses. -/
def CutOff (P : Carbon.Pams F) (N : ℕ) (conc temp : ℕ → F) (st : Carbon.State F) (n : ℕ) : Prop :=
  let concs := (List.range N).map conc
  (BackCalc.guessEmissions (BackCalc.defaultModel P) st (conc n)
    (BackCalc.initialMaxMin (conc n) (if n = 0 then P.preindustrial_co2_conc else conc (n - 1))
      (Carbon.fferSeries P (Carbon.dfnppOfConc P (fun y => concs.getD y 0.0)
        (fun y => ((List.range N).map temp).getD y 0.0)) (n * P.idtm)))
    n (some (temp n)) 1e-7 100).evals.length = 101

/-- The back-calculation over series given as functions. -/
theorem backCalculate_series (P : Carbon.Pams F) (N : ℕ) (conc temp : ℕ → F) :
    let r := BackCalc.backCalculate P (Carbon.initState P) ((List.range N).map conc)
      (fun y => ((List.range N).map temp).getD y 0.0)
    ∃ E : ℕ → F, r.1 = (List.range N).map E ∧
      r.2 = Carbon.yearState P E (fun n => some (temp n)) (Carbon.initState P) N ∧
      ∀ n < N, 1e-7 < MathFn.abs (conc n -
          (Carbon.yearState P E (fun n => some (temp n)) (Carbon.initState P) (n + 1)).xCO2) / conc n →
        CutOff P N conc temp (Carbon.yearState P E (fun n => some (temp n)) (Carbon.initState P) n) n := by
  intro r
  obtain ⟨h1, h2, h3⟩ := C20_backcalculated_emissions P (Carbon.initState P) ((List.range N).map conc)
      (fun y => ((List.range N).map temp).getD y 0.0)
  change r.1.length = _ at h1
  change r.2 = forward _ _ _ 0 r.1 at h2
  have h3' := h3
  rw [List.length_map, List.length_range] at h1
  have hT : ∀ n < N, ((List.range N).map temp).getD n 0.0 = temp n := by
    intro n hn
    rw [List.getD_eq_getElem?_getD, List.getElem?_map, List.getElem?_range hn]; rfl
  have hys : ∀ n ≤ N, Carbon.yearState P (fun k => r.1.getD k 0.0)
        (fun n => some (((List.range N).map temp).getD n 0.0)) (Carbon.initState P) n =
      Carbon.yearState P (fun k => r.1.getD k 0.0) (fun n => some (temp n)) (Carbon.initState P) n := by
    intro n
    induction n with
    | zero => intro _; rfl
    | succ n ih => intro hn; rw [Carbon.yearState, Carbon.yearState, ih (by omega), hT n (by omega)]
  have hf : ∀ n ≤ N, forward P (fun n => some (((List.range N).map temp).getD n 0.0)) (Carbon.initState P) 0
      (r.1.take n) = Carbon.yearState P (fun k => r.1.getD k 0.0) (fun n => some (temp n)) (Carbon.initState P) n := by
    intro n hn
    rw [forward_take P _ _ _ 0.0 (by omega), hys n hn]
  refine ⟨fun k => r.1.getD k 0.0, ?_, ?_, ?_⟩
  · apply List.ext_getElem
    · simp [h1]
    · intro n a b
      simp [List.getD_eq_getElem?_getD, List.getElem?_eq_getElem a]
  · rw [h2, ← hf N (le_refl _), List.take_of_length_le (by omega)]
  · intro n hn hlt
    have hlen : n < ((List.range N).map conc).length := by simpa using hn
    have e1 : ((List.range N).map conc)[n] = conc n := by simp
    have := h3 n hlen
    change 1e-7 < MathFn.abs (((List.range N).map conc)[n] - (forward _ _ _ 0 (r.1.take (n + 1))).xCO2) / _ → _ at this
    rw [hf (n + 1) (by omega), e1] at this
    have h4 := this hlt
    change (BackCalc.guessEmissions _ (forward _ _ _ 0 (r.1.take n)) _ _ _ _ _ _).evals.length = 101 at h4
    rw [hf n (by omega)] at h4
    unfold CutOff
    simp only
    rw [← h4, ← hT n hn]
    congr 4
    split
    · rfl
    · simp

/-- C73, for every number type: the table of a concentration-driven run with the default carbon cycle (any thermal model
reporting the global temperature, any history, at least one sub-step a year). It is always produced; producing it changes
nothing but the carbon cycle's working variables. There are emissions `E`, one for each year, that the table reports, such
that the carbon cycle alone, started from its initial state and driven by `E` and the temperature reported for the *same*
year, has in every year a concentration within 1e-7 of the reported one, unless the search for that year was cut off. The
reported ocean flux and the three diagnostics are those of this forward run; the land flux is computed from the
concentrations instead. -/
theorem C73_run (law : YearLaw F) {tops : ThermalOps F τ} {d0 d d1 : Driver F (IR F)}
    {i : Inputs F} {pamset carb : Option (Dict (PyVal F))} {h0 g : Handler F (IR F)} {es : ℤ}
    {ps : List (RunPams F)} {p : RunPams F} {t : τ}
    (hout : (tops.outputs.map Prod.fst ++ forcOutputList).Nodup)
    (ht : RunTables i.concIn i.emis (Dict.set (Factory.checkPamset pamset) "conc_run" (.bool i.concRun))
      d0.nystart es d0.nyend)
    {m : ℤ} (hm : pamI (Factory.checkPamset pamset) "idtm" = .ok m) (hm0 : 0 < m)
    (hc : construct irOps i pamset carb = .ok h0) (hd0 : d0.source = .handler h0)
    (ha : After irOps tops d0 ps d) (hr : run irOps tops d p = .ok (d1, t)) (hg : d1.source = .handler g)
    (hrun : i.concRun = true) {x : Gas F} (hx : i.gas.get? "CO2" = some x)
    (hfb : d0.feedbackList = some ["dtemp"]) (hdt : ("dT_glob", "dtemp") ∈ tops.outputs)
    (hfirst : PubUtils.getFirstKey tops.outputs "dtemp" = .ok "dT_glob") :
    ∃ (P : Carbon.Pams F) (E temp : ℕ → F) (tab : List (Column F)) (st : Carbon.State F),
      irPams g.carbon = .ok P ∧ P.idtm = m.toNat ∧
      carbonTable irOut tops d1 true =
        .ok (some tab, { d1 with source := .handler { g with carbon := { g.carbon with hold := st } } }) ∧
      tab.map Prod.fst = ["Biosphere carbon flux", "Ocean carbon flux", "Mixed layer depth", "CO2 solubility",
        "Net Primary Production", "Airborne fraction CO2", "Emissions"] ∧
      (∀ n : ℕ, d0.nystart + n ≤ d0.nyend → entry d1.results "dT_glob" n = some (temp n)) ∧
      (∃ c ∈ reportConc g, c.1 = "CO2" ∧ ∀ y, d0.nystart ≤ y → y ≤ d0.nyend → c.2 y = some (i.concIn.cell "CO2" y)) ∧
      let T := fun n => some (temp n)
      let conc := fun n : ℕ => i.concIn.cell "CO2" (d0.nystart + n)
      let N := (d0.nyend - d0.nystart + 1).toNat
      let alone := fun n => Carbon.yearState P E T (Carbon.initState P) n
      st = alone N ∧
      Dict.get? tab "Airborne fraction CO2" = some (Carbon.airborneFraction ((List.range N).map E) ((List.range N).map conc)
        P.preindustrial_co2_conc) ∧
      ∀ n : ℕ, d0.nystart + n ≤ d0.nyend →
        cell tab "Emissions" n = some (E n) ∧
        (1e-7 < MathFn.abs (conc n - (alone (n + 1)).xCO2) / conc n → CutOff P N conc temp (alone n) n) ∧
        cell tab "Ocean carbon flux" n = some (Carbon.oceanFlux P (alone N) n) ∧
        cell tab "Mixed layer depth" n = some (alone (n + 1)).mlFb ∧
        cell tab "CO2 solubility" n = some (alone (n + 1)).solFb ∧
        cell tab "Net Primary Production" n = some (Carbon.fnppFromTemp P (temp n)) ∧
        cell tab "Biosphere carbon flux" n =
          some (Carbon.biosphereFlux P (Carbon.dfnppOfConc P (fun y => ((List.range N).map conc).getD y 0.0)
            (fun y => ((List.range N).map temp).getD y 0.0)) n) := by
  have hle := ht.nonempty
  obtain ⟨f1, f2, f3, f4, f5, f6⟩ := run_frame law hout ht hc hd0 ha hr hg
  rw [hrun] at f3
  have hN : (d0.nyend + 1 - d0.nystart).toNat = (d0.nyend - d0.nystart + 1).toNat := by omega
  -- the parameters of the carbon cycle
  obtain ⟨hf, -, hst1, hst2⟩ := ir_construct (ns := d0.nystart) (ne := d0.nyend) hc
    (by have := ht.nystart; rwa [pamI_set (by decide)] at this)
    (by have := ht.nyend; rwa [pamI_set (by decide)] at this)
  rw [hm, Except.ok.injEq] at hst2
  obtain ⟨h', hd', ⟨hK, hnum⟩, -, -⟩ := after_spec law hd0 (After.next ha hr)
    (fun k => IRKept ((ps ++ [p]).map RunPams.carbon) h0.carbon k ∧ Numeric k.pam (irRequired (F := F)).keys)
    ⟨⟨rfl, rfl, rfl, fun _ _ => Iff.rfl, fun _ _ => rfl, hf⟩, numeric_construct hc⟩
    (fun k y em fb r hP e => ⟨ir_step hP.1 e, by
      obtain ⟨_, _, _, _, _, g1, _⟩ := irStep_ok e
      rw [g1]; exact hP.2⟩)
    (fun p' hp' k k' hP e => ⟨ir_reset (List.mem_map_of_mem hp') hP.1 e, numeric_reset hP.2 e⟩)
  rw [hg] at hd'
  cases hd'
  obtain ⟨P, hP⟩ := numeric_irPams hnum
  have hidm : P.idtm = m.toNat := by
    have := (irPams_idtm hP).1; rw [hK.idtm, ← hst2] at this; omega
  have hid : 0 < P.idtm := by omega
  have hyt : P.years_tot = (d0.nyend - d0.nystart + 1).toNat := by
    rw [(irPams_idtm hP).2.1, hK.years_tot, hst1]
  have hyl : g.years.length = (d0.nyend - d0.nystart + 1).toNat := by rw [f1, pyRange_length, hN]
  -- the working variables are those of a reset
  obtain ⟨hh, -, hres⟩ := C61_conc_run law ht hc hd0 ha hr hg hrun
  have hz : HoldEq zeroHold g.carbon.hold := (irReset_spec hres).2.2.2.2.1
  -- the series
  obtain ⟨temp, htemp⟩ : ∃ temp : ℕ → F, ∀ n < (d0.nyend - d0.nystart + 1).toNat,
      entry d1.results "dT_glob" n = some (temp n) := by
    refine ⟨fun n => (entry d1.results "dT_glob" n).getD 0.0, ?_⟩
    intro n hn
    have hl := f6 "dT_glob" (List.mem_append_left _ (List.mem_map.2 ⟨_, hdt, rfl⟩))
    unfold len at hl
    unfold entry
    cases hq : d1.results.get? "dT_glob" with
    | none => rw [hq] at hl; cases hl
    | some a =>
      rw [hq] at hl
      simp only [Option.map_some, Option.some.injEq] at hl
      simp only [Option.bind_some]
      rw [List.getElem?_eq_getElem (by omega)]
      rfl
  have hser := series_of_entries (f6 "dT_glob" (List.mem_append_left _ (List.mem_map.2 ⟨_, hdt, rfl⟩))) htemp
  have hfs := feedbackSeries_dtemp hfirst hser
  have hcol : "CO2" ∈ i.concIn.cols := by
    obtain ⟨ns1, ne1, emis, clbr, prec, pre, k0, k, e1, e2, -, -, -, e6, -⟩ := construct_spec hc
    exact (frame_at'_eq_ok.1 e6).1
  have hgk : "CO2" ∈ g.gas.keys := by
    obtain ⟨h, emis, tr, H, hd, hsame, htr, hreset, hH, hyr⟩ := run_years law ht hc hd0 ha hr hg
    obtain ⟨b, luc, sun, r, values, vn, vs, Y, -⟩ := hyr d0.nystart (le_refl _) (by omega)
    rw [Y.keysG]
    exact (Dict.get?_isSome_iff _ _).1 ⟨x, hx⟩
  obtain ⟨c, hcm, hc1⟩ := reportConc_mem hgk f4
  have hcy : ∀ y, d0.nystart ≤ y → y ≤ d0.nyend → c.2 y = some (i.concIn.cell "CO2" y) := by
    intro y h1 h2
    have := C12_conc_run law hrun ht hc hd0 ha hr hg c hcm (by rw [hc1]; decide) (by rw [hc1]; exact hcol) y h1 h2
    rwa [hc1] at this
  have hconc := concSeries_run (g := g) (v := fun n : ℕ => i.concIn.cell "CO2" (d0.nystart + n)) f1 f4
    (by
      intro n hn
      exact reportConc_co2 hcm hc1 f4 (hcy (d0.nystart + n) (by omega) (by omega)))
  rw [hN] at hconc
  have hout' := irOutput_conc (conc := (List.range (d0.nyend - d0.nystart + 1).toNat).map
      (fun n : ℕ => i.concIn.cell "CO2" (d0.nystart + n)))
    (dtemp := (List.range (d0.nyend - d0.nystart + 1).toNat).map temp) (years := g.years) hP hid (by simp [hyl]) (by simp [hyl])
    (by rw [hyt, hyl])
  have hne : (List.range (d0.nyend - d0.nystart + 1).toNat).map
      (fun n : ℕ => i.concIn.cell "CO2" (d0.nystart + n)) ≠ [] := by
    intro h
    have := congrArg List.length h
    simp at this
    omega
  obtain ⟨E, b1, b2, b3⟩ := backCalculate_series P (d0.nyend - d0.nystart + 1).toNat
    (fun n : ℕ => i.concIn.cell "CO2" (d0.nystart + n)) temp
  simp only [backCalculate_fresh hid hz hne, b1, b2] at hout'
  have hget : ∀ (f : ℕ → F) (n : ℕ), n < (d0.nyend - d0.nystart + 1).toNat →
      ((List.range (d0.nyend - d0.nystart + 1).toNat).map f)[n]? = some (f n) := by
    intro f n hn
    rw [List.getElem?_map, List.getElem?_range hn]
    rfl
  obtain ⟨B, hB⟩ : ∃ B : ℕ → F, B = Carbon.biosphereFlux P (Carbon.dfnppOfConc P
      (fun y => ((List.range (d0.nyend - d0.nystart + 1).toNat).map
        (fun n : ℕ => i.concIn.cell "CO2" (d0.nystart + n))).getD y 0.0)
      (fun y => ((List.range (d0.nyend - d0.nystart + 1).toNat).map temp).getD y 0.0)) := ⟨_, rfl⟩
  rw [← hB] at hout'
  have htab : carbonTable irOut tops d1 true = .ok (some
      [("Biosphere carbon flux", some ((List.range g.years.length).map B)),
       ("Ocean carbon flux", some ((List.range g.years.length).map (Carbon.oceanFlux P
          (Carbon.yearState P E (fun n => some (temp n)) (Carbon.initState P) (d0.nyend - d0.nystart + 1).toNat)))),
       ("Mixed layer depth", some (((List.range (d0.nyend - d0.nystart + 1).toNat).map temp).map
          (Carbon.mixedLayerTempFeedback P))),
       ("CO2 solubility", some (((List.range (d0.nyend - d0.nystart + 1).toNat).map temp).map
          (Carbon.solubilityTempFeedback P))),
       ("Net Primary Production", some (((List.range (d0.nyend - d0.nystart + 1).toNat).map temp).map
          (Carbon.fnppFromTemp P))),
       ("Airborne fraction CO2", Carbon.airborneFraction ((List.range (d0.nyend - d0.nystart + 1).toNat).map E)
          ((List.range (d0.nyend - d0.nystart + 1).toNat).map
            (fun n : ℕ => i.concIn.cell "CO2" (d0.nystart + n))) P.preindustrial_co2_conc),
       ("Emissions", some ((List.range (d0.nyend - d0.nystart + 1).toNat).map E))], { d1 with source := .handler { g with carbon := { g.carbon with
      hold := Carbon.yearState P E (fun n => some (temp n)) (Carbon.initState P) (d0.nyend - d0.nystart + 1).toNat } } }) := by
    unfold carbonTable
    rw [hg]
    simp only [f5, hfb, hfs, bind_ok, if_true]
    unfold carbonCycleData
    rw [hconc, bind_ok, f3, bind_ok]
    simp only [if_true]
    simp only [irOut]
    rw [hout', bind_ok]
    simp only [pure_ok, bind_ok]
  refine ⟨P, E, temp, _, _, hP, hidm, htab, rfl, fun n hn => htemp n (by omega), ⟨c, hcm, hc1, hcy⟩, rfl, rfl, ?_⟩
  intro n hn
  have hn' : n < (d0.nyend - d0.nystart + 1).toNat := by omega
  obtain ⟨y1, y2⟩ := yearState_fb P E (fun n => some (temp n)) (Carbon.initState P) n
  refine ⟨?_, b3 n hn', ?_, ?_, ?_, ?_, ?_⟩
  · rw [cell_of rfl]; exact hget _ n hn'
  · rw [cell_of rfl, hyl]; exact hget _ n hn'
  · rw [cell_of rfl, List.map_map, y1]; exact hget _ n hn'
  · rw [cell_of rfl, List.map_map, y2]; exact hget _ n hn'
  · rw [cell_of rfl, List.map_map]; exact hget _ n hn'
  · rw [cell_of rfl, hyl, ← hB]; exact hget _ n hn'

/-! ## Asking has no influence on later runs -/

theorem observation_of (law : YearLaw F) {cops : CarbonOps F κ} {oops : OutputOps F κ} {tops : ThermalOps F τ}
    {C : κ → κ → Prop} (hC : CarbonSim cops oops C) {d0 d d' d1 d1' : Driver F κ}
    {i : Inputs F} {pamset carb : Option (Dict (PyVal F))} {h0 : Handler F κ}
    {ps : List (RunPams F)} {p : RunPams F} {t t' : τ}
    (hnd : (tops.outputs.map Prod.fst ++ forcOutputList).Nodup) (hgas : i.gas.keys.Nodup)
    (hc : construct cops i pamset carb = .ok h0) (hd0 : d0.source = .handler h0)
    (hns : pamI (Factory.checkPamset pamset) "nystart" = .ok d0.nystart)
    (hne : pamI (Factory.checkPamset pamset) "nyend" = .ok d0.nyend) (hle : d0.nystart ≤ d0.nyend)
    (h0C : C h0.carbon h0.carbon) (hfr : ∀ k k', C k k' → CarbonFresh cops d0.nystart d0.nyend p.carbon k k')
    (ha : After cops tops d0 ps d) (ha' : AfterAsked cops oops tops d0 ps d')
    (hr : run cops tops d p = .ok (d1, t)) (hr' : run cops tops d' p = .ok (d1', t')) :
    SameResults tops d0.nystart d0.nyend d1 d1' := by
  obtain ⟨h, h', e1, e2, hk, hcc, hs⟩ := asked_sim law hC hd0 h0C ha' d ha
  obtain ⟨h2, e3, -, hk0, hsame⟩ := after_spec law hd0 ha (fun _ => True) trivial
    (fun _ _ _ _ _ _ _ => trivial) (fun _ _ _ _ _ _ => trivial)
  rw [e1] at e3
  cases e3
  have a1 : d.nystart = d0.nystart := by rw [hsame]
  have a2 : d.nyend = d0.nyend := by rw [hsame]
  have := rerun_agree law hnd e1 e2 hk hs (by rw [a1, a2]; exact hle)
    (by rw [hk0.years, construct_years hc hns hne, a1, a2])
    (by rw [hk0.prec, concKeysOf_congr hk0.gas]; exact conc_nodup hgas hc) (Or.inl trivial)
    (by rw [a1, a2]; exact hfr _ _ hcc) hr hr'
  rw [a1, a2] at this
  exact this

/-- C73, observation (default carbon cycle): of two instances with the same history of runs, one of which was asked for
its carbon cycle table any number of times in between, the next run gives the same results. -/
theorem C73_observation (law : YearLaw F) {tops : ThermalOps F τ} {d0 d d' d1 d1' : Driver F (IR F)}
    {i : Inputs F} {pamset carb : Option (Dict (PyVal F))} {h0 : Handler F (IR F)}
    {ps : List (RunPams F)} {p : RunPams F} {t t' : τ}
    (hnd : (tops.outputs.map Prod.fst ++ forcOutputList).Nodup) (hgas : i.gas.keys.Nodup)
    (hc : construct irOps i pamset carb = .ok h0) (hd0 : d0.source = .handler h0)
    (hns : pamI (Factory.checkPamset pamset) "nystart" = .ok d0.nystart)
    (hne : pamI (Factory.checkPamset pamset) "nyend" = .ok d0.nyend) (hle : d0.nystart ≤ d0.nyend)
    (ha : After irOps tops d0 ps d) (ha' : AfterAsked irOps irOut tops d0 ps d')
    (hr : run irOps tops d p = .ok (d1, t)) (hr' : run irOps tops d' p = .ok (d1', t')) :
    SameResults tops d0.nystart d0.nyend d1 d1' := by
  obtain ⟨hf, hst, -, -⟩ := ir_construct hc hns hne
  refine observation_of law (ir_sim d0.nystart) hnd hgas hc hd0 hns hne hle
    ⟨hf, hst, ⟨rfl, rfl, rfl, fun _ _ => Iff.rfl, fun _ _ => rfl, hf⟩⟩ ?_ ha ha' hr hr'
  rintro k k' ⟨h1, h2, h3⟩
  rw [← h2]
  exact ir_fresh h1 h3 (by simp) _

/-- C73, observation (box carbon cycle). -/
theorem C73_observation_box (law : YearLaw F) {tops : ThermalOps F τ} {d0 d d' d1 d1' : Driver F (BoxM F)}
    {i : Inputs F} {pamset carb : Option (Dict (PyVal F))} {h0 : Handler F (BoxM F)}
    {ps : List (RunPams F)} {p : RunPams F} {t t' : τ}
    (hnd : (tops.outputs.map Prod.fst ++ forcOutputList).Nodup) (hgas : i.gas.keys.Nodup)
    (hc : construct boxOps i pamset carb = .ok h0) (hd0 : d0.source = .handler h0)
    (hns : pamI (Factory.checkPamset pamset) "nystart" = .ok d0.nystart)
    (hne : pamI (Factory.checkPamset pamset) "nyend" = .ok d0.nyend) (hle : d0.nystart ≤ d0.nyend)
    (ha : After boxOps tops d0 ps d) (ha' : AfterAsked boxOps boxOut tops d0 ps d')
    (hr : run boxOps tops d p = .ok (d1, t)) (hr' : run boxOps tops d' p = .ok (d1', t')) :
    SameResults tops d0.nystart d0.nyend d1 d1' :=
  observation_of law box_sim hnd hgas hc hd0 hns hne hle ⟨rfl, fun _ _ => rfl⟩
    (fun _ _ hk => box_fresh hk (by simp) _ _) ha ha' hr hr'

/-- With complete inputs every further run completes, also when the table was asked for in between (default carbon
cycle). -/
theorem C73_completes {tops : ThermalOps F τ} {i : Inputs F} {pamset carb : Option (Dict (PyVal F))} {es ref n : ℤ}
    (law : YearLaw F) {d0 d : Driver F (IR F)} {h0 : Handler F (IR F)} {ps : List (RunPams F)} {p : RunPams F}
    (hg : CompleteGases i.gas) (ht : CompleteTables i d0.nystart es d0.nyend ref)
    (h1 : pamI (Factory.checkPamset pamset) "nystart" = .ok d0.nystart)
    (h2 : pamI (Factory.checkPamset pamset) "nyend" = .ok d0.nyend)
    (h3 : pamI (Factory.checkPamset pamset) "emstart" = .ok es)
    (h4 : pamI (Factory.checkPamset pamset) "idtm" = .ok n) (hn : 0 < n)
    (hj : OneComponent i.gas pamset) (hcarb : ∀ p, carb = some p → NoResponse p)
    (hc : construct irOps i pamset carb = .ok h0) (hd0 : d0.source = .handler h0) (hs : CompleteSeries d0)
    (hps : ∀ q ∈ ps ++ [p], ThermalWorks tops q.udm ∧ pamI (Factory.checkPamset q.emiconc) "ref_yr" = .ok ref ∧
      OneComponent i.gas q.emiconc ∧ ∀ r, q.carbon = some r → NoResponse r)
    (ha : AfterAsked irOps irOut tops d0 ps d) : ∃ d1 t, run irOps tops d p = .ok (d1, t) := by
  have hcp : PlainIR (Dict.set (carb.getD []) "preindustrial_co2_conc" (.flt (i.concIn.cell "CO2" d0.nystart))) := by
    apply NoResponse.plain
    intro key hk
    rcases (mem_keys_set _ _ _ _).1 hk with rfl | hk
    · exact ⟨by decide, by decide, by decide⟩
    · cases carb with
      | none => cases hk
      | some p => exact hcarb p rfl key hk
  obtain ⟨h0', hc', hP0, htot⟩ := construct_ok (carb := carb) hg ht h1 h2 h3
    (ir_creates hcp ht.order h1 h2 h4 hn)
    (ir_resets ht.order _ (fun p hp => by rw [Option.some.injEq] at hp; subst hp; exact hcp))
  rw [hc, Except.ok.injEq] at hc'
  subst hc'
  have step : ∀ {d : Driver F (IR F)} {h : Handler F (IR F)} {p : RunPams F},
      d = { d0 with source := d.source, results := d.results } → d.source = .handler h →
      IRFit d0.nystart d0.nyend h.carbon → Kept False h0 h → JustPam i.gas h.pam → HasFrozen h.pam →
      (ThermalWorks tops p.udm ∧ pamI (Factory.checkPamset p.emiconc) "ref_yr" = .ok ref ∧
      OneComponent i.gas p.emiconc ∧ ∀ r, p.carbon = some r → NoResponse r) →
      ∃ d1 t h1, run irOps tops d p = .ok (d1, t) ∧ d1.source = .handler h1 ∧ IRFit d0.nystart d0.nyend h1.carbon ∧
        Kept False h0 h1 ∧ JustPam i.gas h1.pam ∧ HasFrozen h1.pam ∧ d1 = { d0 with source := d1.source, results := d1.results } := by
    intro d h p hsame hd hP hk hjp hf hp
    have en : d.nystart = d0.nystart := by rw [hsame]
    have ee : d.nyend = d0.nyend := by rw [hsame]
    have hsd : CompleteSeries d := by
      rw [hsame]; exact ⟨hs.sun, hs.luc, hs.volcN, hs.volcS, hs.months⟩
    obtain ⟨d1, t, h1', hrun, hsrc, hP1, hk1, hj1, hf1, hsame1⟩ := next_run (d := d) (tops := tops)
      (P := IRFit d0.nystart d0.nyend) law hg (by rw [en, ee]; exact ht) (by rw [en]; exact h1) (by rw [ee]; exact h2)
      h3 hc (by rw [en, ee]; exact htot) (by rw [en, ee]; exact ir_works _ _) hsd hd hk hjp hP hf (p := p)
      ⟨hp.1, ir_resets ht.order _ (fun q hq => (hp.2.2.2 q hq).plain), hp.2.1, hp.2.2.1⟩
    exact ⟨d1, t, h1', hrun, hsrc, hP1, hk1, hj1, hf1, by rw [hsame1, hsame]⟩
  have key : ∃ h, d.source = .handler h ∧ IRFit d0.nystart d0.nyend h.carbon ∧ Kept False h0 h ∧ JustPam i.gas h.pam ∧ HasFrozen h.pam ∧
      d = { d0 with source := d.source, results := d.results } := by
    have hps' : ∀ q ∈ ps, ThermalWorks tops q.udm ∧ pamI (Factory.checkPamset q.emiconc) "ref_yr" = .ok ref ∧
      OneComponent i.gas q.emiconc ∧ ∀ r, q.carbon = some r → NoResponse r :=
      fun q hq => hps q (List.mem_append_left _ hq)
    clear hps
    induction ha with
    | fresh =>
      refine ⟨h0, hd0, hP0, Kept.refl _ _, JustPam.constructed hc hj, ?_, rfl⟩
      obtain ⟨_, _, _, _, _, _, _, _, _, _, _, _, _, _, _, _, e⟩ := construct_spec hc
      rw [e]
      exact frozen_init _ _ _
    | @next ps p d d1 t h hr ih =>
      obtain ⟨g, hg', hP, hk, hjp, hf, hsame⟩ := ih (fun q hq => hps' q (List.mem_append_left _ hq))
      obtain ⟨d2, t2, g1, hrun, b1, b2, b3, b4, b5, b6⟩ := step hsame hg' hP hk hjp hf (hps' p (by simp))
      rw [hr, Except.ok.injEq, Prod.mk.injEq] at hrun
      obtain ⟨rfl, -⟩ := hrun
      exact ⟨g1, b1, b2, b3, b4, b5, b6⟩
    | asked h hr ih =>
      obtain ⟨g, hg', hP, hk, hjp, hf, hsame⟩ := ih hps'
      obtain ⟨k, e, hk'⟩ := carbonTable_spec hg' hr
      refine ⟨{ g with carbon := k }, by rw [e], ?_, ⟨hk.natCh4, hk.natN2o, hk.concIn, hk.emis, hk.pert, hk.years, hk.prec, hk.keys, hk.gas, hk.pam,
        hk.just, hk.before⟩, hjp, hf, ?_⟩
      · rcases hk' with rfl | ⟨y, c, l, f, r, ho, rfl⟩
        · exact hP
        · have := irOutput_keeps ho
          simp only
          rw [this]
          exact ⟨hP.num, hP.idtm, hP.nystart, hP.years⟩
      · subst e
        exact congrArg (fun x : Driver F (IR F) => { x with source := .handler { g with carbon := k } }) hsame
  obtain ⟨h, b1, b2, b3, b4, b5, b6⟩ := key
  obtain ⟨d1, t, g1, hrun, -⟩ := step b6 b1 b2 b3 b4 b5 (hps p (by simp))
  exact ⟨d1, t, hrun⟩

end

/-! ## The land flux -/

section
variable {τ : Type}

theorem fnppFromTemp_pos (P : Carbon.Pams ℝ) (u : ℝ) : 0 < Carbon.fnppFromTemp P u := by
  have hs : ∀ a c w : ℝ, 0 < Carbon.sigmoidGen a c w := by
    intro a c w
    unfold Carbon.sigmoidGen
    have := Real.exp_pos (-((a - c) / w))
    simp only [mexp]
    norm_num
    positivity
  have ht : ∀ a c w : ℝ, 0 < Carbon.thresholdGen a c w := by
    intro a c w
    unfold Carbon.thresholdGen
    have := Real.exp_pos (-((a - c) / w))
    simp only [mexp]
    norm_num
    rw [inv_lt_one₀ (by positivity)]
    linarith
  unfold Carbon.fnppFromTemp
  have := hs 0.0 P.t_half P.w_sigmoid
  have := ht 0.0 P.t_threshold P.w_threshold
  have := hs u P.t_half P.w_sigmoid
  have := ht u P.t_threshold P.w_threshold
  positivity

/-- Without emissions the first sub-step stays at the pre-industrial concentration. -/
theorem first_rest {P : Carbon.Pams ℝ} (hi : P.idtm = 1) (fb : Option ℝ) :
    (Carbon.co2em2conc P (Carbon.initState P) 0 0 fb).xCO2 = P.preindustrial_co2_conc := by
  have e0 : (0.0 : ℝ) = 0 := by norm_num
  unfold Carbon.co2em2conc
  simp only [hi, List.range_one, List.foldl_cons, List.foldl_nil]
  simp [Carbon.subStep, Carbon.initState, e0, Carbon.partialPressure, Carbon.zCo2, Carbon.pco2Of, Carbon.pco2Poly,
    Carbon.zCo2Max, upd, hi]
  intro h
  norm_num at h

theorem not_cutOff {P : Carbon.Pams ℝ} (hi : P.idtm = 1) {N : ℕ} (hN : 0 < N) {conc temp : ℕ → ℝ}
    (hc : conc 0 = P.preindustrial_co2_conc) (hp : 0 < P.preindustrial_co2_conc) :
    ¬ CutOff P N conc temp (Carbon.initState P) 0 := by
  have e0 : (0.0 : ℝ) = 0 := by norm_num
  have hw : Carbon.fferSeries P (Carbon.dfnppOfConc P (fun y => ((List.range N).map conc).getD y 0.0)
      (fun y => ((List.range N).map temp).getD y 0.0)) (0 * P.idtm) = 0 := by
    have hg : ((List.range N).map conc).getD 0 0.0 = P.preindustrial_co2_conc := by
      rw [List.getD_eq_getElem?_getD, List.getElem?_map, List.getElem?_range hN]; exact hc
    unfold Carbon.fferSeries Carbon.dfnppOfConc
    simp only [Nat.zero_mul, Nat.zero_div, hg, div_self hp.ne', mlog, Real.log_one]
    simp [e0]
  have hmm : BackCalc.initialMaxMin (conc 0) P.preindustrial_co2_conc (0 : ℝ) = (1, -1) := by
    unfold BackCalc.initialMaxMin
    rw [hc]
    norm_num
  unfold CutOff
  simp only [if_true, hw, hmm]
  unfold BackCalc.guessEmissions
  have hg : ((-1 : ℝ) + 1) / 2.0 = 0 := by norm_num
  simp only [hg]
  unfold BackCalc.bisectLoop
  have hnc : BackCalc.notConverged (conc 0) ((BackCalc.defaultModel P).conc
      ((BackCalc.defaultModel P).co2em2conc (Carbon.initState P) 0 0 (some (temp 0)))) 1e-7 = false := by
    have : (BackCalc.defaultModel P).conc
      ((BackCalc.defaultModel P).co2em2conc (Carbon.initState P) 0 0 (some (temp 0))) = P.preindustrial_co2_conc :=
      first_rest hi _
    unfold BackCalc.notConverged
    rw [this, hc]
    simp only [sub_self, mabs, abs_zero, zero_div]
    norm_num
  rw [hnc]
  simp

/-- With one sub-step a year the land flux of the second year is that year's production anomaly. -/
theorem landFlux_second {P : Carbon.Pams ℝ} (hi : P.idtm = 1) (d : ℕ → ℝ) : Carbon.biosphereFlux P d 1 = d 1 := by
  have e0 : (0.0 : ℝ) = 0 := by norm_num
  unfold Carbon.biosphereFlux Carbon.fferSeries Carbon.sumf
  simp [hi, fsum, e0, ofInt]

theorem forward_second {P : Carbon.Pams ℝ} (hi : P.idtm = 1) (E : ℕ → ℝ) (T : ℕ → Option ℝ) :
    (Carbon.yearState P E T (Carbon.initState P) 2).dfnpp 1 =
      Carbon.fnppFromTemp P ((T 1).getD 0.0) * P.beta_f *
        Real.log ((Carbon.yearState P E T (Carbon.initState P) 1).xCO2 / P.preindustrial_co2_conc) := by
  rw [Carbon.yearState]
  generalize Carbon.yearState P E T (Carbon.initState P) 1 = s
  unfold Carbon.co2em2conc
  simp only [hi, List.range_one, List.foldl_cons, List.foldl_nil]
  simp [Carbon.subStep, upd]

/-- C73 as one would expect it (all fluxes of the table belong to one and the same carbon cycle) is false: in every
concentration-driven run with one sub-step a year that starts at the pre-industrial concentration and has a noticeably
different concentration in the second year, the reported land flux of the second year is not that of the carbon cycle run
with the reported emissions, whose ocean flux is the reported one. -/
theorem C73_land_false {tops : ThermalOps ℝ τ} {d0 d d1 : Driver ℝ (IR ℝ)}
    {i : Inputs ℝ} {pamset carb : Option (Dict (PyVal ℝ))} {h0 g : Handler ℝ (IR ℝ)} {es : ℤ}
    {ps : List (RunPams ℝ)} {p : RunPams ℝ} {t : τ}
    (hout : (tops.outputs.map Prod.fst ++ forcOutputList).Nodup)
    (ht : RunTables i.concIn i.emis (Dict.set (Factory.checkPamset pamset) "conc_run" (.bool i.concRun))
      d0.nystart es d0.nyend)
    (hm : pamI (Factory.checkPamset pamset) "idtm" = .ok 1)
    (hc : construct irOps i pamset carb = .ok h0) (hd0 : d0.source = .handler h0)
    (ha : After irOps tops d0 ps d) (hr : run irOps tops d p = .ok (d1, t)) (hg : d1.source = .handler g)
    (hrun : i.concRun = true) {x : Gas ℝ} (hx : i.gas.get? "CO2" = some x)
    (hfb : d0.feedbackList = some ["dtemp"]) (hdt : ("dT_glob", "dtemp") ∈ tops.outputs)
    (hfirst : PubUtils.getFirstKey tops.outputs "dtemp" = .ok "dT_glob")
    (hpam : ∀ P, irPams g.carbon = .ok P → P.beta_f ≠ 0 ∧ P.preindustrial_co2_conc = i.concIn.cell "CO2" d0.nystart)
    (hpos : 0 < i.concIn.cell "CO2" d0.nystart) (hpos1 : 0 < i.concIn.cell "CO2" (d0.nystart + 1))
    (hdiff : 1e-7 * i.concIn.cell "CO2" d0.nystart < |i.concIn.cell "CO2" (d0.nystart + 1) - i.concIn.cell "CO2" d0.nystart|)
    (hlong : d0.nystart + 1 ≤ d0.nyend) :
    ∃ (P : Carbon.Pams ℝ) (E temp : ℕ → ℝ) (tab : List (Column ℝ)) (d2 : Driver ℝ (IR ℝ)),
      irPams g.carbon = .ok P ∧ carbonTable irOut tops d1 true = .ok (some tab, d2) ∧
      let last := Carbon.yearState P E (fun n => some (temp n)) (Carbon.initState P) (d0.nyend - d0.nystart + 1).toNat
      (∀ n : ℕ, d0.nystart + n ≤ d0.nyend → entry d1.results "dT_glob" n = some (temp n) ∧
        cell tab "Emissions" n = some (E n) ∧ cell tab "Ocean carbon flux" n = some (Carbon.oceanFlux P last n)) ∧
      cell tab "Biosphere carbon flux" 1 ≠ some (Carbon.biosphereFlux P last.dfnpp 1) := by
  obtain ⟨P, E, temp, tab, st, hP, hi, htab, -, htemp, -, -, -, hrow⟩ := C73_run yearLaw_real hout ht hm (by norm_num) hc hd0 ha hr
    hg hrun hx hfb hdt hfirst
  have hi' : P.idtm = 1 := by rw [hi]; rfl
  obtain ⟨hb, hpre⟩ := hpam P hP
  refine ⟨P, E, temp, tab, _, hP, htab, fun n hn => ⟨htemp n hn, (hrow n hn).1, (hrow n hn).2.2.1⟩, ?_⟩
  obtain ⟨-, -, -, -, -, -, hland⟩ := hrow 1 (by push_cast; omega)
  obtain ⟨-, htol, -⟩ := hrow 0 (by push_cast; omega)
  simp only [Nat.cast_zero, add_zero] at htol
  have hx0 := not_lt.1 (fun h => not_cutOff hi' (by omega) (by simp [hpre]) (by rw [hpre]; exact hpos) (htol h))
  set x0 := (Carbon.yearState P E (fun n => some (temp n)) (Carbon.initState P) 1).xCO2 with hx0d
  simp only [zero_add, ← hx0d, mabs] at hx0
  have hx1 : |i.concIn.cell "CO2" d0.nystart - x0| ≤ 1e-7 * i.concIn.cell "CO2" d0.nystart := (div_le_iff₀ hpos).1 hx0
  rw [hland, biosphereFlux_stable E (fun n => some (temp n)) (by omega) (n := 1) (Y := 2) (by omega) (by omega),
    landFlux_second hi', landFlux_second hi', forward_second hi', ← hx0d]
  have hg1 : ((List.range (d0.nyend - d0.nystart + 1).toNat).map
      (fun n : ℕ => i.concIn.cell "CO2" (d0.nystart + n))).getD 1 0.0 = i.concIn.cell "CO2" (d0.nystart + 1) := by
    rw [List.getD_eq_getElem?_getD, List.getElem?_map, List.getElem?_range (by omega)]; simp
  have hg2 : ((List.range (d0.nyend - d0.nystart + 1).toNat).map temp).getD 1 0.0 = temp 1 := by
    rw [List.getD_eq_getElem?_getD, List.getElem?_map, List.getElem?_range (by omega)]; simp
  unfold Carbon.dfnppOfConc
  simp only [hi', Nat.div_one, hg1, hg2]
  intro e
  rw [Option.some.injEq] at e
  have hf := (fnppFromTemp_pos P (temp 1)).ne'
  have hx0pos : 0 < x0 := by
    have := abs_le.1 hx1
    norm_num at this
    linarith [this.2]
  have hpp : 0 < P.preindustrial_co2_conc := by rw [hpre]; exact hpos
  have hlog : Real.log (i.concIn.cell "CO2" (d0.nystart + 1) / P.preindustrial_co2_conc) =
      Real.log (x0 / P.preindustrial_co2_conc) := by
    have e' : (P.beta_f * Carbon.fnppFromTemp P (temp 1)) *
        Real.log (i.concIn.cell "CO2" (d0.nystart + 1) / P.preindustrial_co2_conc) =
        (P.beta_f * Carbon.fnppFromTemp P (temp 1)) * Real.log (x0 / P.preindustrial_co2_conc) := by
      simp only [mlog, Option.getD_some] at e
      linear_combination e
    exact mul_left_cancel₀ (mul_ne_zero hb hf) e'
  have heq := Real.log_injOn_pos (Set.mem_Ioi.2 (div_pos hpos1 hpp)) (Set.mem_Ioi.2 (div_pos hx0pos hpp)) hlog
  have heq' : i.concIn.cell "CO2" (d0.nystart + 1) = x0 := by
    field_simp at heq
    exact heq
  rw [heq', abs_sub_comm] at hdiff
  linarith

end

/-! ## Concrete cases -/

section
open Verif.Exec Verif.Model.ThermalInst

/-- `C73_run` for the third of three concentration-driven runs. -/
example : ∃ (d1 : Driver ℝ (IR ℝ)) (tab : List (Column ℝ)) (d2 : Driver ℝ (IR ℝ)) (E : ℕ → ℝ),
    carbonTable irOut twoLayerOps d1 true = .ok (some tab, d2) ∧
    (∀ n : ℕ, n ≤ 5 → cell tab "Emissions" n = some (E n)) := by
  obtain ⟨h0, d, d1, t, g, hc, ht, ha, hr, hg⟩ := rich_case_default true
  obtain ⟨P, E, temp, tab, st, hP, -, htab, -, -, -, -, -, hrow⟩ := C73_run yearLaw_real twoLayer_names (d0 := richDriver h0) ht
    rich_pams.2.2.2.1 (by decide) hc rfl ha hr hg rfl rich_co2 rfl twoLayer_temperature twoLayer_first
  refine ⟨d1, tab, _, E, htab, fun n hn => (hrow n ?_).1⟩
  simp only [richDriver]
  omega

theorem beta_noResponse : NoResponse (F := ℝ) [("beta_f", .flt 1)] := by
  intro key hk
  simp only [Dict.keys, List.map_cons, List.map_nil, List.mem_cons, List.not_mem_nil, or_false] at hk
  subst hk
  exact ⟨by decide, by decide, by decide⟩

/-- A concentration-driven run, with and without asking for its carbon cycle table, and a second run with other
parameters: the second run gives the same results. -/
example : ∃ (h0 : Handler ℝ (IR ℝ)) (d d' d1 d1' : Driver ℝ (IR ℝ)) (t t1 t2 : TwoLayer.Pams ℝ × TwoLayer.State ℝ)
    (tab : List (Column ℝ)),
    construct irOps (richInputs true) richPam none = .ok h0 ∧
    run irOps twoLayerOps (richDriver h0) ⟨none, none, none⟩ = .ok (d, t) ∧
    carbonTable irOut twoLayerOps d true = .ok (some tab, d') ∧
    run irOps twoLayerOps d ⟨none, none, some [("beta_f", .flt 1)]⟩ = .ok (d1, t1) ∧
    run irOps twoLayerOps d' ⟨none, none, some [("beta_f", .flt 1)]⟩ = .ok (d1', t2) ∧
    SameResults twoLayerOps 1998 2003 d1 d1' := by
  obtain ⟨h1, h2, h3, h4, h5⟩ := rich_pams
  obtain ⟨h0, hc, h⟩ := C63_default (carb := none) yearLaw_real rich_gases (rich_tables true) h1 h2 h3 h4 (by decide)
    (.absent (by decide)) (by simp)
  obtain ⟨d1, hd1⟩ := h (richDriver h0) ([] ++ [⟨none, none, none⟩] ++ [⟨none, none, some [("beta_f", .flt 1)]⟩]) rfl rfl rfl
    (rich_series h0) (by
      intro p hp
      simp only [List.nil_append, List.cons_append, List.mem_cons, List.not_mem_nil, or_false] at hp
      rcases hp with rfl | rfl
      · exact ⟨h5, .absent (by decide), by simp⟩
      · exact ⟨h5, .absent (by decide), fun q hq => by cases hq; exact beta_noResponse⟩)
  obtain ⟨d, t1, hd, hr1⟩ := after_snoc hd1
  obtain ⟨d00, t, ha, hr⟩ := after_snoc hd
  have := after_nil ha
  subst this
  obtain ⟨g0, g, -, hg, -⟩ := run_handler_spec (rfl : (richDriver h0).source = .handler h0) hr
  obtain ⟨P, E, temp, tab, st, -, -, htab, -⟩ := C73_run yearLaw_real twoLayer_names (d0 := richDriver h0)
    ((rich_tables true).run h1 h2 h3) h4 (by decide) hc rfl .fresh hr hg rfl rich_co2 rfl twoLayer_temperature
    twoLayer_first
  have hask := AfterAsked.asked (AfterAsked.next (oops := irOut) .fresh hr) htab
  obtain ⟨d1', t2, hr2⟩ := C73_completes (d0 := richDriver h0) (carb := none) (es := 2000) (ref := 2010)
    (p := ⟨none, none, some [("beta_f", .flt 1)]⟩) yearLaw_real rich_gases (rich_tables true) h1 h2 h3 h4 (by decide)
    (.absent (by decide)) (by simp) hc rfl (rich_series h0) (by
      intro p hp
      simp only [List.nil_append, List.cons_append, List.mem_cons, List.not_mem_nil, or_false] at hp
      rcases hp with rfl | rfl
      · exact ⟨twoLayer_works _, h5, .absent (by decide), by simp⟩
      · exact ⟨twoLayer_works _, h5, .absent (by decide), fun q hq => by cases hq; exact beta_noResponse⟩) hask
  exact ⟨h0, d, _, d1, d1', t, t1, t2, tab, hc, hr, htab, hr1, hr2,
    C73_observation (d0 := richDriver h0) yearLaw_real twoLayer_names (rich_once true).1 hc rfl h1 h2 (by simp [richDriver]) hd hask hr1 hr2⟩

/-- The case of `C73_land_false`: a concentration-driven run with one carbon cycle step per year. -/
example : ∃ (d1 d2 : Driver ℝ (IR ℝ)) (P : Carbon.Pams ℝ) (E temp : ℕ → ℝ) (tab : List (Column ℝ)),
    carbonTable irOut twoLayerOps d1 true = .ok (some tab, d2) ∧
    (∀ n : ℕ, n ≤ 5 → cell tab "Emissions" n = some (E n)) ∧
    cell tab "Biosphere carbon flux" 1 ≠ some (Carbon.biosphereFlux P
      (Carbon.yearState P E (fun n => some (temp n)) (Carbon.initState P) 6).dfnpp 1) := by
  obtain ⟨pam, hpam⟩ : ∃ pam : Option (Dict (PyVal ℝ)),
      pam = some [("nystart", .int 1998), ("nyend", .int 2003), ("emstart", .int 2000), ("idtm", .int 1)] := ⟨_, rfl⟩
  have h1 : pamI (Factory.checkPamset pam) "nystart" = .ok 1998 := by subst hpam; rfl
  have h2 : pamI (Factory.checkPamset pam) "nyend" = .ok 2003 := by subst hpam; rfl
  have h3 : pamI (Factory.checkPamset pam) "emstart" = .ok 2000 := by subst hpam; rfl
  have h4 : pamI (Factory.checkPamset pam) "idtm" = .ok 1 := by subst hpam; rfl
  have hj : "just_one" ∉ Dict.keys (pam.getD []) := by subst hpam; decide
  obtain ⟨h0, hc, h⟩ := C63_default (carb := none) yearLaw_real rich_gases (rich_tables true) h1 h2 h3 h4 (by decide) (.absent hj)
    (by simp)
  obtain ⟨d1, hd⟩ := h (richDriver h0) ([] ++ [⟨none, none, none⟩]) rfl rfl rfl (rich_series h0) (by
    intro p hp
    simp only [List.nil_append, List.mem_singleton] at hp
    subst hp
    exact ⟨rich_pams.2.2.2.2, .absent (by decide), by simp⟩)
  obtain ⟨d, t, ha, hr⟩ := after_snoc hd
  have := after_nil ha
  subst this
  obtain ⟨g0, g, -, hg, -⟩ := run_handler_spec (rfl : (richDriver h0).source = .handler h0) hr
  have ht := (rich_tables true).run h1 h2 h3
  have hno : ∀ q ∈ [] ++ [(⟨none, none, none⟩ : RunPams ℝ)], ∀ x, ¬ IRGives q.carbon x := by
    intro q hq x
    rw [List.nil_append, List.mem_singleton] at hq
    subst hq
    rintro ⟨a, b, hab, -⟩
    cases hab
  obtain ⟨P, E, temp, tab, d2, -, htab, hrow, hne⟩ := C73_land_false (d0 := richDriver h0) (carb := none) twoLayer_names ht h4 hc
    rfl .fresh hr hg rfl rich_co2 rfl twoLayer_temperature twoLayer_first (by
      intro P hP
      constructor
      · obtain ⟨-, -, -, -, -, q1, -⟩ := irPams_idtm hP
        have q := C71_parameters yearLaw_real (d0 := richDriver h0) (carb := none) (x := "beta_f") (dflt := .flt 0.287)
          (by simp [WF, Dict.keys]) ht hc rfl .fresh hr hg rfl (by decide) (fun q hq => hno q hq _)
        unfold pamF Dict.getE at q1
        rw [q] at q1
        simp only [Option.getD_none, Dict.get?, bind_ok, PyVal.toF, Except.ok.injEq] at q1
        rw [← q1]
        norm_num
      · have := C71_preindustrial yearLaw_real (d0 := richDriver h0) (carb := none)
          (by simp [WF, Dict.keys]) ht hc rfl .fresh hr hg (fun q hq => hno q hq _) hP
        exact (frame_at'_eq_ok.1 this).2.2.symm) (by norm_num [richDriver, richInputs])
    (by norm_num [richDriver, richInputs]) (by norm_num [richDriver, richInputs]) (by simp [richDriver])
  exact ⟨d1, d2, P, E, temp, tab, htab, fun n hn => (hrow n (by simp only [richDriver]; omega)).2.1, hne⟩

end
end Verif.Props
