import Verif.Props.C84

/-!
# C84: the rows of a configuration

What the rows of `Alone` are: one for each requested variable that the results of the run have, labelled with the scenario
and the index of the configuration, over the years of the scenario.
-/

namespace Verif.Props
open Verif.Py Verif.Py.Dict Verif.Model Verif.Model.Handler Verif.Model.Driver Verif.Spec Verif.Exec
  Verif.Model.CarbonInst Verif.Model.CarbonOut Verif.Model.Results Verif.Model.Batch Verif.Model.ThermalInst

section
variable {F κ τ : Type} [Add F] [Sub F] [Mul F] [Div F] [Neg F] [OfScientific F] [LT F] [DecidableLT F]
  [MathFn F]

/-- A year read after the defaults are filled in. -/
theorem year_given {data : Dict (PyVal F)} {k : String} {std y : ℤ}
    (hstd : (yearDefaults (F := F)).get? k = some (.int std))
    (h : pamI (checkNumericPamset yearDefaults data) k = .ok y) : YearGiven data k std y := by
  have hwf : WF (yearDefaults (F := F)) := by simp [yearDefaults, WF, Dict.keys]
  unfold pamI Dict.getE at h
  rw [get?_checkNumericPamset hwf, hstd] at h
  cases hd : data.get? k with
  | none =>
    rw [hd] at h
    simp only [bind_ok, PyVal.toI, Except.ok.injEq] at h
    exact .inr ⟨fun u hu => (by rw [hd] at hu; cases hu), h.symm⟩
  | some v =>
    rw [hd] at h
    cases hv : v.isNum with
    | false =>
      simp only [hv, Bool.false_eq_true, if_false, bind_ok, PyVal.toI, Except.ok.injEq] at h
      exact .inr ⟨fun u hu => by rw [hd, Option.some.injEq] at hu; rw [← hu, hv], h.symm⟩
    | true =>
      simp only [hv, if_true, bind_ok] at h
      cases hI : v.toI with
      | none => rw [hI] at h; cases h
      | some x =>
        rw [hI] at h
        simp only [Except.ok.injEq] at h
        exact .inl ⟨v, hd, hv, by rw [hI, h]⟩

omit [LT F] [DecidableLT F] [MathFn F] in
/-- The rows made of the answers. -/
theorem rows_for {w : Wrapper F κ} {index : String} {r : Reader.Results F} :
    ∀ {vars : List String} {rows : List (Option (Batch.Row F))}, vars.mapM (Batch.rowOf w index r) = .ok rows →
      RowsFor w.scen index (fun v a => Reader.getVariable r w.indices v w.units = .ok a) vars (rows.filterMap id) := by
  intro vars
  induction vars with
  | nil =>
    intro rows h
    simp only [List.mapM_nil, pure_ok, Except.ok.injEq] at h
    subst h
    exact .nil
  | cons v vars ih =>
    intro rows h
    rw [List.mapM_cons] at h
    obtain ⟨x, hx, h⟩ := bind_eq_ok.1 h
    obtain ⟨xs, hxs, h⟩ := bind_eq_ok.1 h
    simp only [pure_ok, Except.ok.injEq] at h
    subst h
    unfold Batch.rowOf at hx
    obtain ⟨a, ha, hx⟩ := bind_eq_ok.1 hx
    by_cases hu : a.unit = "NoUnit"
    · rw [if_pos hu] at hx
      simp only [pure_ok, Except.ok.injEq] at hx
      subst hx
      have := ih hxs
      exact .unknown ha hu this
    · rw [if_neg hu] at hx
      simp only [pure_ok, Except.ok.injEq] at hx
      subst hx
      exact .known ha hu ⟨rfl, rfl, rfl, rfl, rfl, rfl, rfl, rfl, rfl⟩ (ih hxs)

/-- C84, what the rows are: the instance built for the scenario runs with the parameters of the configuration; each
requested variable is looked up in the results of that run, over the years of the scenario (1750 to 2100 where it gives
none), and has one row if it is known there. -/
theorem C84_rows {cops : CarbonOps F κ} {oops : OutputOps F κ} {tops : ThermalOps F τ} {vars : List String}
    {s : Scenario F κ} {c : Cfg F} {rows : List (Batch.Row F)} (h : Alone cops oops tops vars s c rows) :
    ∃ (d0 d1 d2 : Driver F κ) (t : τ) (r : Reader.Results F) (units : Reader.Units) (first last : ℤ),
      s.build = .ok d0 ∧ s.units = .ok units ∧
      YearGiven s.data "nystart" 1750 first ∧ YearGiven s.data "nyend" 2100 last ∧
      run cops tops d0 c.pams = .ok (d1, t) ∧ runResults oops tops d1 true = .ok (r, d2) ∧
      RowsFor s.name c.index (fun v a => Reader.getVariable r (pyRange first (last + 1)) v units = .ok a) vars rows := by
  obtain ⟨w, w', hw, hs⟩ := h
  unfold wrapperInit at hw
  simp only [] at hw
  obtain ⟨first, hf, hw⟩ := bind_eq_ok.1 hw
  obtain ⟨last, hl, hw⟩ := bind_eq_ok.1 hw
  obtain ⟨units, hu, hw⟩ := bind_eq_ok.1 hw
  obtain ⟨d0, hb, hw⟩ := bind_eq_ok.1 hw
  simp only [pure_ok, Except.ok.injEq] at hw
  subst hw
  unfold stepCfg at hs
  obtain ⟨⟨d1, t⟩, hr, hs⟩ := bind_eq_ok.1 hs
  obtain ⟨⟨r, d2⟩, hres, hs⟩ := bind_eq_ok.1 hs
  obtain ⟨os, hos, hs⟩ := bind_eq_ok.1 hs
  simp only [pure_ok, Except.ok.injEq, Prod.mk.injEq] at hs
  obtain ⟨-, rfl⟩ := hs
  exact ⟨d0, d1, d2, t, r, units, first, last, hb, hu, year_given rfl hf, year_given rfl hl, hr, hres, rows_for hos⟩

/-- C84 for one scenario given as it is instead of in a list: the rows of instances that run one configuration each, in the
order of the configurations, for every number of workers and every schedule. -/
theorem C84_one_scenario {cops : CarbonOps F κ} {oops : OutputOps F κ} {tops : ThermalOps F τ} {vars : List String}
    (hnd : (tops.outputs.map Prod.fst ++ forcOutputList).Nodup) {s : Scenario F κ} {cfgs : List (Cfg F)}
    {rows : Cfg F → List (Batch.Row F)} (hc : cfgs ≠ []) {d0 : Driver F κ} {rf : Forcing F} (hb : s.build = .ok d0)
    (hrf : d0.source = .forcing rf) (hr : d0.results = [])
    (halone : ∀ c ∈ cfgs, Alone cops oops tops vars s c (rows c) ∧ rows c ≠ [])
    {w : ℤ} (hw : 1 ≤ w) {sched : Parallel.Schedule} (hv : sched.Valid (Parallel.makeRuns [s] cfgs w).length)
    (ht : sched.timedOut = false) :
    runOverDistribution sched cops oops tops vars (.inl s) cfgs w = .ok (cfgs.flatMap rows) ∧
    runOverDistribution sched cops oops tops vars (.inr [s]) cfgs w = .ok (cfgs.flatMap rows) := by
  have key := C84_forcing (scendata := [s]) (rows := fun _ => rows) hnd (by simp) hc
    (fun s' hs => by rw [List.mem_singleton.1 hs]; exact ⟨d0, rf, hb, hrf, hr⟩)
    (fun s' hs c hcm => by rw [List.mem_singleton.1 hs]; exact halone c hcm) hw hv ht
  simp only [List.flatMap_cons, List.flatMap_nil, List.append_nil] at key
  exact ⟨key, key⟩

end

/-! ## The hypothesis is met -/

/-- A scenario without a last year and with a first year that is no number; the variable that is not known has no row. -/
def noYears : Scenario ℚ (BoxM ℚ) := { shortScenario with data := [("nystart", .str "1998")] }

example : ∃ rows, Alone boxOps boxOut twoLayerOps ["Nothing", theTemperature] noYears ⟨"b", ⟨none, none, none⟩⟩ rows ∧
    rows.map (·.variableName) = [theTemperature] ∧ rows.map (fun r => (r.years.head?, r.years.getLast?)) =
      [(some 1750, some 2100)] := by
  have h : (match (do
      let w ← wrapperInit noYears
      let r ← stepCfg boxOps boxOut twoLayerOps ["Nothing", theTemperature] w ⟨"b", ⟨none, none, none⟩⟩
      return (r.2.map Batch.Row.variableName, r.2.map (fun r : Batch.Row ℚ => (r.years.head?, r.years.getLast?)))) with
      | .ok x => x == ([theTemperature], [(some 1750, some 2100)])
      | .error (_ : PyErr) => false) = true := by decide +kernel
  split at h
  · rename_i x hx
    obtain ⟨w, hw, hx⟩ := bind_eq_ok.1 hx
    obtain ⟨r, hr, hx⟩ := bind_eq_ok.1 hx
    simp only [pure_ok, Except.ok.injEq] at hx
    subst hx
    simp only [beq_iff_eq, Prod.mk.injEq] at h
    exact ⟨r.2, ⟨w, r.1, hw, hr⟩, h.1, h.2⟩
  · cases h

/-- Prescribed forcing, any configurations: one scenario given as it is. -/
example (cfgs : List (Cfg ℝ)) (hne : cfgs ≠ []) (hwf : ∀ c ∈ cfgs, ∀ q, c.pams.udm = some q → Dict.WF q) :
    let s : Scenario ℝ Unit := ⟨[("nystart", .int 2000), ("nyend", .int 2001)], "S", .ok richUnits, .ok exRfDriver⟩
    let oops : OutputOps ℝ Unit := ⟨fun _ _ _ _ _ => .error .keyError, fun _ => .error .keyError⟩
    ∃ rows : Cfg ℝ → List (Batch.Row ℝ), (∀ c ∈ cfgs, rows c ≠ []) ∧
    ∀ (w : ℤ) (sched : Parallel.Schedule), 1 ≤ w → sched.timedOut = false →
      sched.Valid (Parallel.makeRuns [s] cfgs w).length →
      runOverDistribution sched noCarbon oops twoLayerOps [theTemperature] (.inl s) cfgs w = .ok (cfgs.flatMap rows) := by
  intro s oops
  have hal : ∀ c ∈ cfgs, ∃ rows, Alone noCarbon oops twoLayerOps [theTemperature] s c rows ∧ rows ≠ [] := by
    intro c hc
    obtain ⟨d1, t, hr⟩ := C41_succeeds noCarbon (p := c.pams) (d := exRfDriver) (xs := [1, 2]) (hwf c hc) rfl
      (by simp [exRfDriver]) (by simp [exRfDriver]) (by simp [exRfDriver]) (by simp [exRfDriver]) (by simp [exRfDriver])
      (by
        intro i vn vs h1 h2
        have : exRfDriver.volcN = exRfDriver.volcS := rfl
        rw [this, h2] at h1
        simp only [Option.some.injEq] at h1
        rw [h1])
    obtain ⟨a, hT⟩ := results_has twoLayer_names hr (o := "dT_glob") (by simp [twoLayerOps, twoLayerOutputs])
    obtain ⟨rows, e1, e2⟩ := alone_rows (s := s) (c := c) (oops := oops)
      (w := ⟨richUnits, pyRange 2000 (2001 + 1), exRfDriver, "S"⟩) rfl hr
      (r := ⟨[], d1.results⟩) (d2 := d1) (by unfold runResults; rw [forcing_kept twoLayer_names hr rfl]) rfl hT
    exact ⟨rows, e2, e1⟩
  classical
  refine ⟨fun c => if h : ∃ rows, Alone noCarbon oops twoLayerOps [theTemperature] s c rows ∧ rows ≠ [] then h.choose
    else [], fun c hc => ?_, fun w sched hw ht hv => ?_⟩
  · simp only [dif_pos (hal c hc)]
    exact (hal c hc).choose_spec.2
  · refine (C84_one_scenario twoLayer_names hne rfl rfl rfl (fun c hc => ?_) hw hv ht).1
    simp only [dif_pos (hal c hc)]
    exact (hal c hc).choose_spec

end Verif.Props
