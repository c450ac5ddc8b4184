import Verif.Lemmas.FlatErase
import Verif.Props.C63_udm
import Verif.Props.C45_unread
import Verif.Exec.RichRun
import Verif.Lemmas.CompleteCarbon

/-!
# C45: names in the carbon cycle set that the carbon cycle does not read
-/

namespace Verif.Props
open Verif.Py Verif.Py.Dict Verif.Model Verif.Model.Handler Verif.Model.Driver Verif.Model.CarbonInst Verif.Spec
open Verif.Model.InputHandler

section
variable {F κ τ : Type} [Add F] [Sub F] [Mul F] [Div F] [Neg F] [OfScientific F] [LT F] [DecidableLT F] [MathFn F]

theorem updatePam_erase (old d : Dict (PyVal F)) {can : List String} {k : String} (hk : k ∉ can) :
    updatePamIfNumeric old (some (Dict.erase d k)) can = updatePamIfNumeric old (some d) can := by
  unfold updatePamIfNumeric
  simp only
  rw [foldl_erase]
  intro w v
  unfold updatePamStep
  rw [if_pos]
  simp [hk]

theorem run_carbon_congr (cops : CarbonOps F κ) (tops : ThermalOps F τ) (d : Driver F κ) (u q : Option (Dict (PyVal F)))
    {c c' : Option (Dict (PyVal F))} (h : ∀ k, cops.reset k c = cops.reset k c') :
    run cops tops d ⟨u, q, c⟩ = run cops tops d ⟨u, q, c'⟩ := by
  unfold run startRun resetSource resetWithNewPams resetArrays
  simp only [h]

/-- **C45**, the box carbon cycle: a name that is not one of its eight parameters has no effect in the carbon cycle set of a run,
in particular none of the response functions nor a parameter of the default carbon cycle that the box model does not have. -/
theorem C45_unread_box (tops : ThermalOps F τ) (d : Driver F (BoxM F)) (u q : Option (Dict (PyVal F))) (e : Dict (PyVal F))
    {k : String} (hk : k ∉ ["beta_f", "land_temp_sensitivity", "soil_respiration_rate", "ocean_mixed_layer_depth",
      "ocean_exchange_rate", "vegetation_to_soil_fraction", "ocean_solubility_base", "ocean_solubility_temp_coeff"]) :
    run boxOps tops d ⟨u, q, some (Dict.erase e k)⟩ = run boxOps tops d ⟨u, q, some e⟩ := by
  refine run_carbon_congr boxOps tops d u q (fun m => ?_)
  show boxReset m _ = boxReset m _
  unfold boxReset
  rw [updatePam_erase]
  exact hk

/-- **C45**, the default carbon cycle: a name that is neither one of its parameters, nor a response function, nor a numbered
response parameter has no effect in the carbon cycle set of a run, whatever else is in the set. -/
theorem C45_unread_default (tops : ThermalOps F τ) (d : Driver F (IR F)) (u q : Option (Dict (PyVal F))) (e : Dict (PyVal F))
    {k : String} (hk : k ∉ ["beta_f", "mixed_carbon", "ml_w_sigmoid", "ml_fracmax", "ml_t_half", "t_half", "w_sigmoid",
      "t_threshold", "w_threshold", "solubility_sens", "solubility_limit", "ml_depth_min", "preindustrial_co2_conc",
      "rs_function", "rb_function"])
    (hn : ∀ pre ∈ ["rb_coef", "rb_tim", "rs_coef", "rs_tim"], ¬ (pre.toList <+: k.toList)) :
    run irOps tops d ⟨u, q, some (Dict.erase e k)⟩ = run irOps tops d ⟨u, q, some e⟩ := by
  refine run_carbon_congr irOps tops d u q (fun m => ?_)
  show CarbonInst.irReset m (some (Dict.erase e k)) = CarbonInst.irReset m (some e)
  have hs : "rs_function" ≠ k := by rintro rfl; exact hk (by decide)
  have hb : "rb_function" ≠ k := by rintro rfl; exact hk (by decide)
  have hreq : k ∉ (irRequired (F := F)).keys := by
    intro h
    apply hk
    have all : ∀ a ∈ ["beta_f", "mixed_carbon", "ml_w_sigmoid", "ml_fracmax", "ml_t_half", "t_half", "w_sigmoid",
      "t_threshold", "w_threshold", "solubility_sens", "solubility_limit", "ml_depth_min", "preindustrial_co2_conc"],
      a ∈ ["beta_f", "mixed_carbon", "ml_w_sigmoid", "ml_fracmax", "ml_t_half", "t_half", "w_sigmoid",
      "t_threshold", "w_threshold", "solubility_sens", "solubility_limit", "ml_depth_min", "preindustrial_co2_conc",
      "rs_function", "rb_function"] := by decide
    exact all k h
  have hup : ∀ m : IR F, irUpdate m (Dict.erase e k) = irUpdate m e := by
    intro m
    unfold irUpdate
    rw [Lemmas.FlatErase.processFlat_erase ⟨hn, hs, hb⟩]
    cases processFlat e with
    | error x => rfl
    | ok new =>
      simp only [Except.map, bind_ok]
      have hn : irNewPam m.pam (Dict.erase new k) = irNewPam m.pam new := by
        unfold irNewPam takeFunction
        simp only [updatePam_erase m.pam new hreq, List.foldl_cons, List.foldl_nil, get?_erase, if_neg hs, if_neg hb]
      simp only [hn, has_erase new hs, has_erase new hb]
  unfold irReset
  simp only [hup]

/-- **C45**, all three sets of a run of the default model: leaving out any names that the component of a set does not read changes
nothing. -/
theorem C45_unread_all (solve : UDM.Solver F) (d : Driver F (IR F)) (u q e : Dict (PyVal F)) (ku kq ke : List String)
    (hu : ∀ k ∈ ku, k ∉ thermalRead) (hq : ∀ k ∈ kq, k ∉ handlerRead)
    (he : ∀ k ∈ ke, k ∉ ["beta_f", "mixed_carbon", "ml_w_sigmoid", "ml_fracmax", "ml_t_half", "t_half", "w_sigmoid",
      "t_threshold", "w_threshold", "solubility_sens", "solubility_limit", "ml_depth_min", "preindustrial_co2_conc",
      "rs_function", "rb_function"] ∧ ∀ pre ∈ ["rb_coef", "rb_tim", "rs_coef", "rs_tim"], ¬ (pre.toList <+: k.toList)) :
    run irOps (ThermalInst.udmOps solve) d
        ⟨some (ku.foldl Dict.erase u), some (kq.foldl Dict.erase q), some (ke.foldl Dict.erase e)⟩ =
      run irOps (ThermalInst.udmOps solve) d ⟨some u, some q, some e⟩ := by
  induction ku generalizing u with
  | cons k ks ih =>
    rw [List.foldl_cons, ih _ (fun a ha => hu a (List.mem_cons_of_mem _ ha))]
    exact C45_unread_diffusion irOps solve d _ _ u (hu k List.mem_cons_self)
  | nil =>
    induction kq generalizing q with
    | cons k ks ih =>
      rw [List.foldl_cons, ih _ (fun a ha => hq a (List.mem_cons_of_mem _ ha))]
      exact C45_unread irOps _ d _ _ q (hq k List.mem_cons_self)
    | nil =>
      induction ke generalizing e with
      | cons k ks ih =>
        rw [List.foldl_cons, ih _ (fun a ha => he a (List.mem_cons_of_mem _ ha))]
        exact C45_unread_default _ d _ _ e (he k List.mem_cons_self).1 (he k List.mem_cons_self).2
      | nil => rfl

/-- Parameter sets without the names `ku`, `kq` and `ke` in the thermal, the emission/concentration and the carbon set. -/
def withoutNames (ku kq ke : List String) (p : RunPams F) : RunPams F :=
  ⟨p.udm.map (ku.foldl Dict.erase ·), p.emiconc.map (kq.foldl Dict.erase ·), p.carbon.map (ke.foldl Dict.erase ·)⟩

/-- The run with sets some of which may be left out. -/
theorem run_without (solve : UDM.Solver F) (d : Driver F (IR F)) (p : RunPams F) (ku kq ke : List String)
    (hu : ∀ k ∈ ku, k ∉ thermalRead) (hq : ∀ k ∈ kq, k ∉ handlerRead)
    (he : ∀ k ∈ ke, k ∉ ["beta_f", "mixed_carbon", "ml_w_sigmoid", "ml_fracmax", "ml_t_half", "t_half", "w_sigmoid",
      "t_threshold", "w_threshold", "solubility_sens", "solubility_limit", "ml_depth_min", "preindustrial_co2_conc",
      "rs_function", "rb_function"] ∧ ∀ pre ∈ ["rb_coef", "rb_tim", "rs_coef", "rs_tim"], ¬ (pre.toList <+: k.toList)) :
    run irOps (ThermalInst.udmOps solve) d (withoutNames ku kq ke p) = run irOps (ThermalInst.udmOps solve) d p := by
  obtain ⟨u, q, e⟩ := p
  show run irOps (ThermalInst.udmOps solve) d ⟨u.map _, q.map _, e.map _⟩ = _
  have h1 : ∀ (q e : Option (Dict (PyVal F))), run irOps (ThermalInst.udmOps solve) d ⟨u.map (ku.foldl Dict.erase ·), q, e⟩ =
      run irOps (ThermalInst.udmOps solve) d ⟨u, q, e⟩ := by
    intro q e
    cases u with
    | none => rfl
    | some u =>
      simp only [Option.map_some]
      induction ku generalizing u with
      | nil => rfl
      | cons k ks ih =>
        rw [List.foldl_cons, ih (fun a ha => hu a (List.mem_cons_of_mem _ ha))]
        exact C45_unread_diffusion irOps solve d _ _ u (hu k List.mem_cons_self)
  have h2 : ∀ (e : Option (Dict (PyVal F))), run irOps (ThermalInst.udmOps solve) d ⟨u, q.map (kq.foldl Dict.erase ·), e⟩ =
      run irOps (ThermalInst.udmOps solve) d ⟨u, q, e⟩ := by
    intro e
    cases q with
    | none => rfl
    | some q =>
      simp only [Option.map_some]
      clear h1
      induction kq generalizing q with
      | nil => rfl
      | cons k ks ih =>
        rw [List.foldl_cons, ih (fun a ha => hq a (List.mem_cons_of_mem _ ha))]
        exact C45_unread irOps _ d _ _ q (hq k List.mem_cons_self)
  have h3 : run irOps (ThermalInst.udmOps solve) d ⟨u, q, e.map (ke.foldl Dict.erase ·)⟩ =
      run irOps (ThermalInst.udmOps solve) d ⟨u, q, e⟩ := by
    cases e with
    | none => rfl
    | some e =>
      simp only [Option.map_some]
      clear h1 h2
      induction ke generalizing e with
      | nil => rfl
      | cons k ks ih =>
        rw [List.foldl_cons, ih (fun a ha => he a (List.mem_cons_of_mem _ ha))]
        exact C45_unread_default _ d _ _ e (he k List.mem_cons_self).1 (he k List.mem_cons_self).2
  rw [h1, h2, h3]

/-- The last run of a history. -/
theorem after_last {cops : CarbonOps F κ} {tops : ThermalOps F τ} {d0 d : Driver F κ} {ps : List (RunPams F)} {p : RunPams F}
    (h : After cops tops d0 (ps ++ [p]) d) : ∃ d' t, After cops tops d0 ps d' ∧ run cops tops d' p = .ok (d, t) := by
  generalize hl : ps ++ [p] = l at h
  cases h with
  | fresh => simp at hl
  | next ha hr =>
    obtain ⟨rfl, h2⟩ := List.append_inj' hl rfl
    rw [List.cons.injEq] at h2
    rw [h2.1]
    exact ⟨_, _, ha, hr⟩

/-- **C45**, every history of an instance: the instance after a sequence of runs, in which any sets may be left out, is the one
after the same runs without the names their components do not read. -/
theorem C45_unread_history (solve : UDM.Solver F) (d0 d : Driver F (IR F)) (ps : List (RunPams F)) (ku kq ke : List String)
    (hu : ∀ k ∈ ku, k ∉ thermalRead) (hq : ∀ k ∈ kq, k ∉ handlerRead)
    (he : ∀ k ∈ ke, k ∉ ["beta_f", "mixed_carbon", "ml_w_sigmoid", "ml_fracmax", "ml_t_half", "t_half", "w_sigmoid",
      "t_threshold", "w_threshold", "solubility_sens", "solubility_limit", "ml_depth_min", "preindustrial_co2_conc",
      "rs_function", "rb_function"] ∧ ∀ pre ∈ ["rb_coef", "rb_tim", "rs_coef", "rs_tim"], ¬ (pre.toList <+: k.toList)) :
    After irOps (ThermalInst.udmOps solve) d0 (ps.map (withoutNames ku kq ke)) d ↔
      After irOps (ThermalInst.udmOps solve) d0 ps d := by
  constructor
  · intro h
    induction ps using List.reverseRecOn generalizing d with
    | nil => exact h
    | append_singleton ps p ih =>
      rw [List.map_append] at h
      obtain ⟨d', t, h', hr⟩ := after_last h
      exact .next (ih d' h') ((run_without solve _ _ ku kq ke hu hq he).symm.trans hr)
  · intro h
    induction h with
    | fresh => exact .fresh
    | next _ hr ih =>
      rw [List.map_append]
      exact .next ih ((run_without solve _ _ ku kq ke hu hq he).trans hr)

end

open Verif.Exec

/-- A name of the other carbon cycle in the set of a run, with a concrete instance. -/
example (h0 : Handler ℝ (BoxM ℝ)) : run boxOps ThermalInst.twoLayerOps (richDriver h0)
      ⟨none, none, some [("beta_f", .flt 0.3), ("mixed_carbon", .flt 80)]⟩ =
    run boxOps ThermalInst.twoLayerOps (richDriver h0) ⟨none, none, some [("beta_f", .flt 0.3)]⟩ :=
  (C45_unread_box _ _ _ _ [("beta_f", .flt 0.3), ("mixed_carbon", .flt 80)] (k := "mixed_carbon") (by decide)).symm

/-- The same with the default carbon cycle. -/
example (h0 : Handler ℝ (IR ℝ)) : run irOps ThermalInst.twoLayerOps (richDriver h0)
      ⟨none, none, some [("beta_f", .flt 0.3), ("ocean_exchange_rate", .flt 80)]⟩ =
    run irOps ThermalInst.twoLayerOps (richDriver h0) ⟨none, none, some [("beta_f", .flt 0.3)]⟩ :=
  (C45_unread_default _ _ _ _ [("beta_f", .flt 0.3), ("ocean_exchange_rate", .flt 80)] (k := "ocean_exchange_rate") (by decide)
    (by decide)).symm

/-- The same beside numbered response parameters. -/
example (h0 : Handler ℝ (IR ℝ)) : run irOps ThermalInst.twoLayerOps (richDriver h0)
      ⟨none, none, some [("rb_coef0", .flt 0.5), ("ocean_exchange_rate", .flt 80), ("rb_tim0", .flt 2)]⟩ =
    run irOps ThermalInst.twoLayerOps (richDriver h0) ⟨none, none, some [("rb_coef0", .flt 0.5), ("rb_tim0", .flt 2)]⟩ :=
  (C45_unread_default _ _ _ _ [("rb_coef0", .flt 0.5), ("ocean_exchange_rate", .flt 80), ("rb_tim0", .flt 2)]
    (k := "ocean_exchange_rate") (by decide) (by decide)).symm

/-- One name too many in each of the three sets. -/
example (h0 : Handler ℝ (IR ℝ)) (solve : UDM.Solver ℝ) : run irOps (ThermalInst.udmOps solve) (richDriver h0)
      ⟨some [("lambda", .flt 0.6), ("qo3", .flt 0.4)], some [("qo3", .flt 0.4), ("npp0", .flt 60)],
        some [("beta_f", .flt 0.3), ("npp0", .flt 60), ("lambda", .flt 0.6)]⟩ =
    run irOps (ThermalInst.udmOps solve) (richDriver h0)
      ⟨some [("lambda", .flt 0.6)], some [("qo3", .flt 0.4)], some [("beta_f", .flt 0.3)]⟩ :=
  (C45_unread_all solve _ [("lambda", .flt 0.6), ("qo3", .flt 0.4)] [("qo3", .flt 0.4), ("npp0", .flt 60)]
    [("beta_f", .flt 0.3), ("npp0", .flt 60), ("lambda", .flt 0.6)] ["qo3"] ["npp0"] ["npp0", "lambda"]
    (by decide) (by decide) (by decide)).symm

/-- Two runs with names that nothing reads complete, because they do without these names. -/
example (b : Bool) : ∃ h0 d, construct irOps (richInputs b) richPam none = .ok h0 ∧
    After irOps (ThermalInst.udmOps Lemmas.Tridiag.exactSolver) (richDriver h0)
      [⟨some [("threstemp", .flt 0), ("qo3", .flt 0.4)], none, none⟩,
       ⟨some [("threstemp", .flt 0)], none, some [("beta_f", .flt 1), ("npp0", .flt 60)]⟩] d := by
  obtain ⟨h0, d, hc, hd⟩ := rich_after_diffusion b
  exact ⟨h0, d, hc, (C45_unread_history Lemmas.Tridiag.exactSolver _ d
    [⟨some [("threstemp", .flt 0), ("qo3", .flt 0.4)], none, none⟩,
     ⟨some [("threstemp", .flt 0)], none, some [("beta_f", .flt 1), ("npp0", .flt 60)]⟩]
    ["qo3"] [] ["npp0"] (by decide) (by decide) (by decide)).1 hd⟩

end Verif.Props
