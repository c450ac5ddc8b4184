import Verif.Lemmas.Shared
import Verif.Spec.Reuse
import Verif.Spec.History
import Verif.Props.C85
import Verif.Props.C03_C04
import Verif.Props.C83_runs

/-!
# C92: using a configuration again
-/

namespace Verif.Props
open Verif.Py Verif.Py.Dict Verif.Model Verif.Model.Handler Verif.Model.Driver Verif.Model.InputHandler Verif.Spec
  Verif.Spec.Inputs Verif.Spec.Uses Verif.Spec.Reuse

section
variable {F κ τ : Type}

theorem updatedCfg_other (c : Dict (CfgVal F)) {k : String} (hk : k ∉ driverKeys) :
    Dict.get? (updatedCfg c) k = Dict.get? c k := by
  rw [get?_updatedCfg]
  have : Dict.get? (Factory.driverCfg (plain c)) k = none := by
    rw [get?_eq_none_iff]
    exact fun h => hk (keys_driverCfg _ h)
  rw [this]
  rfl

theorem sharedEmis_other (c : Dict (CfgVal F)) (h : Handler.Handler F κ) {k : String} (hk : k ≠ "emissions_data") :
    Dict.get? (sharedEmis c h) k = Dict.get? c k := by
  unfold sharedEmis
  split
  · rfl
  · split
    · rw [get?_set, if_neg (Ne.symm hk)]
    · rfl

theorem sharedGas_other (c : Dict (CfgVal F)) (h : Handler.Handler F κ) {k : String} (hk : k ≠ "gaspam_data") :
    Dict.get? (sharedGas c h) k = Dict.get? c k := by
  unfold sharedGas
  split
  · rfl
  · split
    · rw [get?_set, if_neg (Ne.symm hk)]
    · rfl

theorem leftBehind_other (c : Dict (CfgVal F)) (src : Source F κ) {k : String} (h1 : k ≠ "emissions_data")
    (h2 : k ≠ "gaspam_data") : Dict.get? (leftBehind c src) k = Dict.get? (updatedCfg c) k := by
  unfold leftBehind
  cases src with
  | forcing f => rfl
  | handler h => simp only; rw [sharedGas_other _ _ h2, sharedEmis_other _ _ h1]

/-- **C92** What the caller's dictionary holds afterwards. Whatever the model is given and whatever it does, an entry that is not
one of the six settings and not one of the two tables is as it was; a setting that is there stays, except that a value that is not
a number is replaced when a number is wanted; and a setting that is not there is added only when it is a number with a default. -/
theorem C92_dictionary {c : Dict (CfgVal F)} (hc : WF c) (src : Source F κ) {k : String}
    (h1 : k ≠ "emissions_data") (h2 : k ≠ "gaspam_data") :
    (k ∉ settings → Dict.get? (leftBehind c src) k = Dict.get? c k) ∧
    (∀ v, Dict.get? c k = some (.val v) → (v.isNum = true ∨ k ∈ ["carbon_cycle_model", "thermal_model"]) →
      Dict.get? (leftBehind c src) k = some (.val v)) ∧
    (Dict.get? c k = none → Dict.get? (leftBehind c src) k = none ∨
      k ∈ ["nystart", "nyend", "emstart", "idtm"]) := by
  rw [leftBehind_other c src h1 h2]
  have hq : (k ∈ Dict.keys (Factory.driverUsed (F := F))) = (k ∈ ["carbon_cycle_model", "thermal_model"]) := rfl
  have hr : ∀ w, Dict.get? (Factory.driverRequired (F := F)) k = some w → k ∈ ["nystart", "nyend", "emstart", "idtm"] := by
    intro w hw
    exact (get?_isSome_iff _ _).1 ⟨w, hw⟩
  refine ⟨fun hk => updatedCfg_other c hk, fun v hv hk => ?_, fun hn => ?_⟩
  · rw [get?_updatedCfg, get?_driverCfg (WF_plain hc), get?_plain, hv]
    unfold sanitisedValue
    simp only [Option.map_some, plainVal]
    cases he : Dict.get? (Factory.driverRequired (F := F)) k with
    | none =>
      simp only
      split <;> rfl
    | some w =>
      have hm := hr w he
      rcases hk with hk | hk
      · simp [hk]
      · exfalso
        simp only [List.mem_cons, List.not_mem_nil, or_false] at hk
        rcases hk with rfl | rfl <;> revert hm <;> decide
  · rw [get?_updatedCfg, get?_driverCfg (WF_plain hc), get?_plain, hn]
    unfold sanitisedValue
    simp only [Option.map_none]
    cases he : Dict.get? (Factory.driverRequired (F := F)) k with
    | none => left; simp
    | some w => right; exact hr w he

theorem writtenGas_same (t : Dict (Gas F × String)) : writtenGas t (t.map (fun kv => (kv.1, kv.2.1))) = t := by
  unfold writtenGas
  induction t with
  | nil => rfl
  | cons p t ih => rw [List.map_cons, List.zipWith_cons_cons, ih]

/-- The tables in the configuration are the ones of the model object. -/
theorem leftBehind_same {c : Dict (CfgVal F)} {h : Handler.Handler F κ}
    (he : NoFile c "emissions" → ∀ t, DataIs c "emissions" (.table t) → h.emis = t)
    (hg : NoFile c "gaspam" → ∀ t, DataIs c "gaspam" (.gases t) → h.gas = t.map (fun kv => (kv.1, kv.2.1))) :
    leftBehind c (.handler h) = updatedCfg c := by
  have e : sharedEmis (updatedCfg c) h = updatedCfg c := by
    unfold sharedEmis
    rw [updatedCfg_other c (k := "emissions_data") (by decide)]
    split
    · rfl
    · rename_i hf
      split
      · rename_i t ht
        have : h.emis = t := by
          refine he ?_ t ht
          have := (Dict.has_iff (d := updatedCfg c) (k := "emissions_file")).not.1 (by simpa using hf)
          refine (updatedCfg_other c (k := "emissions_file") (by decide)).symm.trans ?_
          exact (get?_eq_none_iff _ _).2 this
        rw [this]
        exact set_same ((updatedCfg_other c (by decide)).trans ht)
      · rfl
  unfold leftBehind
  simp only
  rw [e]
  unfold sharedGas
  rw [updatedCfg_other c (k := "gaspam_data") (by decide)]
  split
  · rfl
  · rename_i hf
    split
    · rename_i t ht
      have : h.gas = t.map (fun kv => (kv.1, kv.2.1)) := by
        refine hg ?_ t ht
        have := (Dict.has_iff (d := updatedCfg c) (k := "gaspam_file")).not.1 (by simpa using hf)
        refine (updatedCfg_other c (k := "gaspam_file") (by decide)).symm.trans ?_
        exact (get?_eq_none_iff _ _).2 this
      rw [this, writtenGas_same]
      exact set_same ((updatedCfg_other c (by decide)).trans ht)
    · rfl

variable [Add F] [Sub F] [Mul F] [Div F] [Neg F] [OfScientific F] [LT F] [DecidableLT F] [MathFn F]

/-- The tables of a fresh object. -/
theorem fresh_tables {cops : CarbonOps F κ} {tops : ThermalOps F τ} {fs : Files F} {c : Dict (CfgVal F)} {d : Driver F κ}
    (hc : WF c) (h : build cops tops fs c = .ok d) {g : Handler.Handler F κ} (hg : d.source = .handler g) :
    (EmissionsKept c → NoFile c "emissions" → ∀ t, DataIs c "emissions" (.table t) → g.emis = t) ∧
    (NoFile c "gaspam" → ∀ t, DataIs c "gaspam" (.gases t) → g.gas = t.map (fun kv => (kv.1, kv.2.1))) := by
  obtain ⟨inp, ⟨p, hk⟩, hu, -, hpe, -⟩ := C74_gas_run hc h hg
  obtain ⟨ns, ne, emis, clbr, prec, pre, k0, k, h1, h2, h3, h4, h5, h6, h7, h8, e⟩ := construct_spec hk
  refine ⟨fun hem hf t ht => ?_, fun hf t ht => ?_⟩
  · have hn : inp.pertEm = none := by
      rcases hem with ⟨v, hv⟩ | ⟨a, b⟩
      · rw [hf] at hv; cases hv
      · exact hpe a b
    unfold perturbedEmis at h3
    rw [hn] at h3
    have h3' : inp.emis = emis := by simpa using h3
    have hx := (hu "emissions" (by decide) _ hf ht).emissions rfl
    cases hx
    rw [e]
    exact h3'.symm
  · obtain ⟨t', hx, hg'⟩ := (hu "gaspam" (by decide) _ hf ht).gases rfl
    cases hx
    rw [e]
    exact hg'

omit [Sub F] [Div F] [Neg F] [LT F] [DecidableLT F] [MathFn F] [Add F] [Mul F] [OfScientific F] in
theorem get?_first (t : Dict (Gas F × String)) (k : String) :
    Dict.get? (t.map (fun kv => (kv.1, kv.2.1)) : Dict (Gas F)) k = (Dict.get? t k).map Prod.fst := by
  induction t with
  | nil => rfl
  | cons p t ih =>
    obtain ⟨a, v⟩ := p
    rw [List.map_cons, get?_cons, get?_cons, ih]
    split <;> rfl

theorem steady_fresh {cops : CarbonOps F κ} {tops : ThermalOps F τ} {fs : Files F} {c : Dict (CfgVal F)} {d : Driver F κ}
    (hc : WF c) (h : build cops tops fs c = .ok d) {g : Handler.Handler F κ} (hg : d.source = .handler g)
    (one : ∀ x : F, 1.0 * x = x)
    (hk : Dict.get? c "conc_run" = some (.val (.bool true)) ∨ (NotGiven c "nat_ch4" ∧ NotGiven c "nat_n2o")) : Steady g := by
  obtain ⟨B, inp, hi, p, hp⟩ := gas_run_inputs hc h hg
  rcases hk with hk | ⟨⟨a1, a2⟩, b1, b2⟩
  · left
    have : inp.concRun = true := by
      rw [(inputs_used hi).2.2.2, concRun, conc_run_stored B, hk]; rfl
    have e := concRun_constructed hp
    unfold pamB Dict.getE
    rw [e, this]
    rfl
  · right
    obtain ⟨hu, -⟩ := inputs_used hi
    obtain ⟨x, hx⟩ := getInputs_ok hi "gaspam" (by simp)
    obtain ⟨t, rfl, hgas⟩ := (hu "gaspam" (by decide) x hx).gases rfl
    obtain ⟨r1, m1, n1⟩ := C47_natural_default (what := "nat_ch4") (gas := "CH4") B.wf B.create (by simp)
      ((B.same _ (by decide)).trans a1) ((B.same _ (by decide)).trans a2) hx
    obtain ⟨r2, m2, n2⟩ := C47_natural_default (what := "nat_n2o") (gas := "N2O") B.wf B.create (by simp)
      ((B.same _ (by decide)).trans b1) ((B.same _ (by decide)).trans b2) hx
    have i1 := (hu "nat_ch4" (by decide) _ n1).natural_methane rfl
    have i2 := (hu "nat_n2o" (by decide) _ n2).natural_nitrous_oxide rfl
    rw [Data.table.injEq] at i1 i2
    obtain ⟨ns, ne, emis, clbr, prec, pre, k0, k, h1, h2, h3, h4, h5, h6, h7, h8, e⟩ := construct_spec hp
    have eg : g.gas = inp.gas := by rw [e]
    have e4 : g.natCh4 = inp.natCh4 := by rw [e]
    have e2 : g.natN2o = inp.natN2o := by rw [e]
    refine ⟨fun yr v q hv hq => ?_, fun yr v q hv hq => ?_⟩
    · rw [e4, ← i1, frame_at'_eq_ok] at hv
      rw [eg, hgas, get?_first, m1] at hq
      simp only [Option.map_some, Option.some.injEq] at hq
      rw [← hv.2.2, ← hq, one]
    · rw [e2, ← i2, frame_at'_eq_ok] at hv
      rw [eg, hgas, get?_first, m2] at hq
      simp only [Option.map_some, Option.some.injEq] at hq
      rw [← hv.2.2, ← hq, one]

/-- The tables of an object that has been run. -/
theorem after_tables {cops : CarbonOps F κ} {tops : ThermalOps F τ} {d0 d : Driver F κ} {ps : List (RunPams F)}
    {h0 : Handler.Handler F κ} (hd0 : d0.source = .handler h0) (ha : After cops tops d0 ps d) :
    ∃ h, d.source = .handler h ∧ h.emis = h0.emis ∧ (Steady h0 → Steady h ∧ h.gas = h0.gas) := by
  induction ha with
  | fresh => exact ⟨h0, hd0, rfl, fun s => ⟨s, rfl⟩⟩
  | @next ps p d d1 t _ hr ih =>
    obtain ⟨h, hd, he, hs⟩ := ih
    obtain ⟨g, h1, e, e1, s, -⟩ := run_handler_spec hd hr
    obtain ⟨pam, k, -, -, eg⟩ := reset_spec e
    refine ⟨h1, e1, ?_, fun st => ?_⟩
    · rw [s.emis, ← he, eg]
    · obtain ⟨st1, hg⟩ := hs st
      obtain ⟨h1', e1', hg'⟩ := run_gas hd st1 hr
      rw [e1, Source.handler.injEq] at e1'
      subst e1'
      refine ⟨?_, hg'.trans hg⟩
      rcases st1 with st1 | st1
      · left
        unfold pamB Dict.getE at st1 ⊢
        rw [s.pam, reset_concRun e]
        exact st1
      · right
        exact st1.congr (by rw [s.natCh4, eg]) (by rw [s.natN2o, eg]) hg'

theorem after_forcing {cops : CarbonOps F κ} {tops : ThermalOps F τ} (hnd : (tops.outputs.map Prod.fst ++ forcOutputList).Nodup)
    {d0 d : Driver F κ} {ps : List (RunPams F)} {f : Forcing F} (h : d0.source = .forcing f) (ha : After cops tops d0 ps d) :
    d.source = .forcing f := by
  induction ha with
  | fresh => exact h
  | next _ hr ih => exact forcing_kept hnd hr ih

/-- **C92** A configuration can be used again, after building a model from it, to build the same model. -/
theorem C92_build_again {cops : CarbonOps F κ} {tops : ThermalOps F τ} {fs : Files F} {c : Dict (CfgVal F)} {d : Driver F κ}
    (hc : WF c) (h : build cops tops fs c = .ok d) (he : EmissionsKept c) :
    build cops tops fs (leftBehind c d.source) = .ok d := by
  have key : leftBehind c d.source = updatedCfg c := by
    cases hs : d.source with
    | forcing f => rfl
    | handler g =>
      obtain ⟨h1, h2⟩ := fresh_tables hc h hs
      exact leftBehind_same (h1 he) h2
  rw [key, build_updated cops tops fs hc, h]

/-- **C92** The same after any number of runs of the first model. What is missing: natural emissions given for an emission-driven
run together with a gas table given as data (`C92_natural_false`), and perturbed emissions given as data
(`C92_perturbed_false`). -/
theorem C92_reuse_partial {cops : CarbonOps F κ} {tops : ThermalOps F τ} {fs : Files F} {c : Dict (CfgVal F)} {d0 d : Driver F κ}
    {ps : List (RunPams F)} (hnd : (tops.outputs.map Prod.fst ++ forcOutputList).Nodup) (one : ∀ x : F, 1.0 * x = x)
    (hc : WF c) (h : build cops tops fs c = .ok d0) (ha : After cops tops d0 ps d) (he : EmissionsKept c) (hg : GasesKept c) :
    build cops tops fs (leftBehind c d.source) = .ok d0 := by
  have key : leftBehind c d.source = updatedCfg c := by
    cases hs : d0.source with
    | forcing f => rw [after_forcing hnd hs ha]; rfl
    | handler g =>
      obtain ⟨h1, h2⟩ := fresh_tables hc h hs
      obtain ⟨g', e, hem, hgas⟩ := after_tables hs ha
      rw [e]
      refine leftBehind_same (fun a t ht => hem.trans (h1 he a t ht)) (fun a t ht => ?_)
      have hk : Dict.get? c "conc_run" = some (.val (.bool true)) ∨ (NotGiven c "nat_ch4" ∧ NotGiven c "nat_n2o") := by
        rcases hg with ⟨v, hv⟩ | hg
        · rw [a] at hv; cases hv
        · exact hg
      exact (hgas (steady_fresh hc h hs one hk)).2.trans (h2 a t ht)
  rw [key, build_updated cops tops fs hc, h]

end

/-! ## What goes wrong, and the cases that occur -/
open Verif.Exec Verif.Model.ThermalInst

/-- A configuration with its tables given as data. -/
def dataCfg (more : Dict (CfgVal ℚ)) : Dict (CfgVal ℚ) :=
  [("nystart", .val (.int 2000)), ("nyend", .val (.int 2004)), ("emstart", .val (.int 2002)), ("gaspam_data", .data (.gases fileGas)),
   ("emissions_data", .data (.table { fileEmis with cols := ["CO2_FF", "CO2_AFOLU", "BMB_AEROS_OC"] ++ fileEmis.cols })),
   ("concentrations_data", .data (.table fileConc))] ++ more

/-- The temperatures of 2004 in a run of a model, and in a run of a second model built from the same configuration. -/
def usedTwice (c : Dict (CfgVal ℚ)) : Except PyErr (Option ℚ × Option ℚ) := do
  let d ← build toyCarbon twoLayerOps toyFiles c
  let r ← run toyCarbon twoLayerOps d ⟨none, none, none⟩
  let d' ← build toyCarbon twoLayerOps toyFiles (leftBehind c r.1.source)
  let r' ← run toyCarbon twoLayerOps d' ⟨none, none, none⟩
  return (entry r.1.results "dT_glob" 4, entry r'.1.results "dT_glob" 4)

def perturbedCfg : Dict (CfgVal ℚ) := dataCfg [("perturb_em_data", .data (.pert [⟨"CH4", 2003, 5⟩]))]

/-- **C92** as stated is false: with emissions and a perturbation of them given as data, the second model built from the same
configuration perturbs the emissions once more, and the temperatures differ. -/
theorem C92_perturbed_false : ∃ (c : Dict (CfgVal ℚ)) (d d1 d' d1' : Driver ℚ ℚ) (t t' : TwoLayer.Pams ℚ × TwoLayer.State ℚ)
    (p : RunPams ℚ),
    WF c ∧ build toyCarbon twoLayerOps toyFiles c = .ok d ∧ run toyCarbon twoLayerOps d p = .ok (d1, t) ∧
    build toyCarbon twoLayerOps toyFiles (leftBehind c d1.source) = .ok d' ∧ run toyCarbon twoLayerOps d' p = .ok (d1', t') ∧
    entry d1'.results "dT_glob" 4 ≠ entry d1.results "dT_glob" 4 := by
  have h : (match usedTwice perturbedCfg with
      | .ok r => decide (r.2 ≠ r.1)
      | _ => false) = true := by decide +kernel
  cases e : usedTwice perturbedCfg with
  | error _ => rw [e] at h; cases h
  | ok r =>
    rw [e] at h
    simp only [decide_eq_true_eq] at h
    unfold usedTwice at e
    simp only [bind_eq_ok] at e
    obtain ⟨d, h1, r1, h2, d', h3, r2, h4, e⟩ := e
    rw [pure_ok, Except.ok.injEq] at e
    subst e
    exact ⟨_, d, r1.1, d', r2.1, r1.2, r2.2, _, by unfold WF; decide +kernel, h1, h2, h3, h4, h⟩

/-- Natural emissions of methane given for the first model only. -/
def naturalCfg : Dict (CfgVal ℚ) := dataCfg [("nat_ch4_data", .data (.table ⟨["CH4"], pyRange 2000 2005, fun _ y => 2 * y⟩))]

/-- The temperatures of 2004 in a run of a model without natural emissions, before and after a model with natural emissions was
run with the same gas table. -/
def sharedTable : Except PyErr (Option ℚ × Option ℚ) := do
  let d ← build toyCarbon twoLayerOps toyFiles naturalCfg
  let r ← run toyCarbon twoLayerOps d ⟨none, none, none⟩
  let v ← Dict.getE (leftBehind naturalCfg r.1.source) "gaspam_data"
  let d2 ← build toyCarbon twoLayerOps toyFiles (dataCfg [])
  let r2 ← run toyCarbon twoLayerOps d2 ⟨none, none, none⟩
  let d3 ← build toyCarbon twoLayerOps toyFiles ((dataCfg []).set "gaspam_data" v)
  let r3 ← run toyCarbon twoLayerOps d3 ⟨none, none, none⟩
  return (entry r2.1.results "dT_glob" 4, entry r3.1.results "dT_glob" 4)

/-- **C92** is false of a gas table used by two configurations: after a run of a model with natural methane emissions, the table
has the natural emissions of the last year in it, and a model without natural emissions uses them. -/
theorem C92_shared_table_false : ∃ (c1 c2 : Dict (CfgVal ℚ)) (d d1 d2 d3 d2' d3' : Driver ℚ ℚ)
    (t t2 t3 : TwoLayer.Pams ℚ × TwoLayer.State ℚ) (p : RunPams ℚ) (v : CfgVal ℚ),
    WF c1 ∧ WF c2 ∧ Dict.get? c1 "gaspam_data" = Dict.get? c2 "gaspam_data" ∧
    build toyCarbon twoLayerOps toyFiles c1 = .ok d ∧ run toyCarbon twoLayerOps d p = .ok (d1, t) ∧
    Dict.get? (leftBehind c1 d1.source) "gaspam_data" = some v ∧
    build toyCarbon twoLayerOps toyFiles c2 = .ok d2 ∧ run toyCarbon twoLayerOps d2 p = .ok (d2', t2) ∧
    build toyCarbon twoLayerOps toyFiles (c2.set "gaspam_data" v) = .ok d3 ∧ run toyCarbon twoLayerOps d3 p = .ok (d3', t3) ∧
    entry d3'.results "dT_glob" 4 ≠ entry d2'.results "dT_glob" 4 := by
  have h : (match sharedTable with
      | .ok r => decide (r.2 ≠ r.1)
      | _ => false) = true := by decide +kernel
  cases e : sharedTable with
  | error _ => rw [e] at h; cases h
  | ok r =>
    rw [e] at h
    simp only [decide_eq_true_eq] at h
    unfold sharedTable at e
    simp only [bind_eq_ok] at e
    obtain ⟨d, h1, r1, h2, v, hv, d2, h3, r2, h4, d3, h5, r3, h6, e⟩ := e
    rw [pure_ok, Except.ok.injEq] at e
    subst e
    refine ⟨naturalCfg, dataCfg [], d, r1.1, d2, d3, r2.1, r3.1, r1.2, r2.2, r3.2, _, v, by unfold WF; decide +kernel,
      by unfold WF; decide +kernel, rfl, h1, h2, ?_, h3, h4, h5, h6, h⟩
    unfold Dict.getE at hv
    split at hv
    · rename_i w hw
      rw [Except.ok.injEq] at hv
      rw [hw, hv]
    · cases hv

/-- The hypotheses of `C92_reuse_partial` are met with gas table and emissions given as data. -/
example : ∃ (d0 d : Driver ℚ ℚ) (ps : List (RunPams ℚ)), WF (dataCfg []) ∧
    ((twoLayerOps (F := ℚ)).outputs.map Prod.fst ++ forcOutputList).Nodup ∧ (∀ x : ℚ, 1.0 * x = x) ∧
    build toyCarbon twoLayerOps toyFiles (dataCfg []) = .ok d0 ∧ After toyCarbon twoLayerOps d0 ps d ∧ ps ≠ [] ∧
    EmissionsKept (dataCfg []) ∧ GasesKept (dataCfg []) ∧ NoFile (dataCfg []) "gaspam" ∧ NoFile (dataCfg []) "emissions" := by
  have h : okB (usedTwice (dataCfg [])) = true := by decide +kernel
  obtain ⟨r, e⟩ := (okB_iff _).1 h
  unfold usedTwice at e
  simp only [bind_eq_ok] at e
  obtain ⟨d, h1, r1, h2, -⟩ := e
  exact ⟨d, r1.1, _, by unfold WF; decide +kernel, by decide +kernel, fun x => by norm_num, h1, .next (ps := []) .fresh h2,
    by simp, .inr ⟨rfl, rfl⟩, .inr (.inr ⟨⟨rfl, rfl⟩, rfl, rfl⟩), rfl, rfl⟩

end Verif.Props
