import Verif.Lemmas.InputErase
import Verif.Model.ThermalInst
import Verif.Exec.RealRun
import Verif.Props.C87_usable

/-!
# C45: what a parameter in a set does whose owner does not read it

Nothing, in any run. So the parameters of C45 that are put in a wrong set have no effect.
-/

namespace Verif.Props
open Verif.Py Verif.Py.Dict Verif.Model Verif.Model.ConfigDistro Verif.Model.Sampling Verif.Model.Handler Verif.Model.Driver
open Verif.Model.ThermalInst Verif.Spec Verif.Model.InputHandler

section
variable {F κ τ : Type}

theorem cutAndCheck_erase (req d used : Dict (PyVal F)) {k : String} (hr : k ∉ Dict.keys (usedKeys req used)) :
    cutAndCheckPamset req (Dict.erase d k) used = cutAndCheckPamset req d used := by
  unfold cutAndCheckPamset cutNonRequired
  rw [foldl_erase]
  intro w v
  simp only
  rw [if_neg]
  rwa [has_iff]

theorem has_erase (d : Dict (PyVal F)) {a k : String} (h : a ≠ k) : Dict.has (Dict.erase d k) a = Dict.has d a := by
  unfold Dict.has
  rw [get?_erase, if_neg h]

variable [OfScientific F] [Neg F] [Div F]

theorem checkPamset_erase (e : Dict (PyVal F)) {k : String} (hk : k ∉ handlerRead) :
    Factory.checkPamset (some (Dict.erase e k)) = Factory.checkPamset (some e) := by
  have h1 : "lifetime_mode" ≠ k := by rintro rfl; exact hk (by decide)
  have h2 : "carbon_cycle_model" ≠ k := by rintro rfl; exact hk (by decide)
  have step : ∀ (d : Dict (PyVal F)) (a : String) (v : PyVal F), a ≠ k →
      (if (Dict.erase d k).has a then Dict.erase d k else (Dict.erase d k).set a v) =
        Dict.erase (if d.has a then d else d.set a v) k := by
    intro d a v h
    rw [has_erase d h]
    split
    · rfl
    · exact (erase_set d v h).symm
  unfold Factory.checkPamset
  simp only [Option.getD_some]
  rw [step _ _ _ h1, step _ _ _ h2, cutAndCheck_erase]
  intro h
  apply hk
  have e1 : ∀ a ∈ ["qbmb", "qo3", "qdirso2", "qindso2", "qbc", "qoc", "qh2o_ch4", "ref_yr", "qnmvoc", "qnh3", "qnox", "idtm",
      "nystart", "nyend", "emstart"], a ∈ handlerRead := by decide
  have e2 : ∀ a ∈ ["lifetime_mode", "just_one", "carbon_cycle_model", "idtm", "nystart", "nyend", "emstart"],
      a ∈ handlerRead := by decide
  unfold usedKeys at h
  rw [if_neg (by simp [Factory.handlerUsed]), mem_keys_update] at h
  rcases h with h | h
  · exact e2 k h
  · exact e1 k h

end

section
variable {F κ τ : Type} [Add F] [Sub F] [Mul F] [Div F] [Neg F] [OfScientific F] [LT F] [DecidableLT F] [MathFn F]

/-- **C45**, what "does not read" means: a name that is not in the list of the handler's parameters has no effect in the
emission/concentration set. The run is the same without it, whether it succeeds or raises, for all instances, carbon cycles and
thermal models. -/
theorem C45_unread (cops : CarbonOps F κ) (tops : ThermalOps F τ) (d : Driver F κ) (u c : Option (Dict (PyVal F)))
    (e : Dict (PyVal F)) {k : String} (hk : k ∉ handlerRead) :
    run cops tops d ⟨u, some (Dict.erase e k), c⟩ = run cops tops d ⟨u, some e, c⟩ := by
  unfold run startRun resetSource resetWithNewPams
  simp only [checkPamset_erase e hk]

/-- **C45**, the same for the set of the diffusion model. -/
theorem C45_unread_diffusion (cops : CarbonOps F κ) (solve : UDM.Solver F) (d : Driver F κ) (c q : Option (Dict (PyVal F)))
    (e : Dict (PyVal F)) {k : String} (hk : k ∉ thermalRead) :
    run cops (udmOps solve) d ⟨some (Dict.erase e k), q, c⟩ = run cops (udmOps solve) d ⟨some e, q, c⟩ := by
  have h : (udmOps solve).create (some (Dict.erase e k)) = (udmOps solve).create (some e) := by
    show udmCreate (some (Dict.erase e k)) = udmCreate (some e)
    unfold udmCreate
    simp only [Option.getD_some]
    rw [cutAndCheck_erase]
    exact hk
  unfold run startRun
  simp only [h]

/-- **C45**, the same for the set of the two-layer model, which has parameters of its own. -/
theorem C45_unread_two_layer (cops : CarbonOps F κ) (d : Driver F κ) (c q : Option (Dict (PyVal F)))
    (e : Dict (PyVal F)) {k : String}
    (hk : k ∉ ["lambda", "mixed", "deep", "k", "ocean_efficacy", "foan", "foas", "delta_lambda_aero"]) :
    run cops twoLayerOps d ⟨some (Dict.erase e k), q, c⟩ = run cops twoLayerOps d ⟨some e, q, c⟩ := by
  have h : (twoLayerOps (F := F)).create (some (Dict.erase e k)) = twoLayerOps.create (some e) := by
    show twoLayerCreate (some (Dict.erase e k)) = twoLayerCreate (some e)
    unfold twoLayerCreate
    simp only [Option.getD_some]
    rw [cutAndCheck_erase]
    exact hk
  unfold run startRun
  simp only [h]

end

/-! ## Parameters without any effect -/

/-- A configuration as a run receives it. -/
def runPams (cfg : Config ℝ) : RunPams ℝ :=
  ⟨some (asPams cfg.sets.udm), some (asPams cfg.sets.emiconc), some (asPams cfg.sets.carbon)⟩

theorem prior_once : Dict.WF (priorFlat : Dict (List ℝ)) := by
  simp only [Dict.WF, Dict.keys, priorFlat, List.map_cons, List.map_nil]
  decide

/-- **C45** fails for `npp0` of the default distribution: every configuration drawn from it, with either method, has a value for
`npp0`, in the emission/concentration set only, and no run of any instance, carbon cycle and thermal model reacts to it. -/
theorem C45_npp0_false (m : Option String) (n : ℕ) (u : ℕ → ℕ → ℝ) (f : Option String) (pre : String) (chunk : Option ℕ)
    (d : Full ℝ) (r : Lists ℝ) (w : List (Written ℝ)) (hd : Sampling.construct none none none m = .ok d)
    (h : make d n u f pre chunk = .ok (r, w)) (cfg : Config ℝ) (hc : cfg ∈ allConfigs r) :
    (∃ v, Dict.get? cfg.sets.emiconc "npp0" = some v) ∧ Dict.get? cfg.sets.udm "npp0" = none ∧
    Dict.get? cfg.sets.carbon "npp0" = none ∧
    ∀ {κ τ : Type} (cops : CarbonOps ℝ κ) (tops : ThermalOps ℝ τ) (D : Driver ℝ κ),
      run cops tops D (runPams cfg) =
        run cops tops D { runPams cfg with emiconc := some (Dict.erase (asPams cfg.sets.emiconc) "npp0") } := by
  have hd' : Sampling.construct (some priorFlat) (some setValuesDefault) (some false) m = .ok d := hd
  have hS : Sampled (priorFlat : Dict (List ℝ)) (setValuesDefault : Dict ℝ) false "npp0" := by
    refine ⟨?_, ?_, by simp⟩
    · simp [Dict.keys, priorFlat]
    · simp [Dict.keys, setValuesDefault]
  have h1 : IsHome "npp0" .emiconc := (homeOf_iff _ _).1 (by decide +kernel)
  have h2 : ¬ IsHome "npp0" .thermal := fun e => absurd ((homeOf_iff _ _).2 e) (by decide +kernel)
  have h3 : ¬ IsHome "npp0" .carbon := fun e => absurd ((homeOf_iff _ _).2 e) (by decide +kernel)
  obtain ⟨i, hi⟩ := List.getElem?_of_mem hc
  have hrun : ∀ {κ τ : Type} (cops : CarbonOps ℝ κ) (tops : ThermalOps ℝ τ) (D : Driver ℝ κ),
      run cops tops D (runPams cfg) =
        run cops tops D { runPams cfg with emiconc := some (Dict.erase (asPams cfg.sets.emiconc) "npp0") } :=
    fun cops tops D => (C45_unread cops tops D _ _ _ (by decide)).symm
  by_cases hm : m = none ∨ m = some "latin"
  · obtain ⟨-, col, -, key⟩ := C87_latin priorFlat prior_once setValuesDefault false m hm d hd' n u f pre chunk r w h
    obtain ⟨lo, hi', -, -, key⟩ := key "npp0" hS
    exact ⟨⟨_, (key i cfg hi .emiconc).1 h1⟩, (key i cfg hi .thermal).2 h2, (key i cfg hi .carbon).2 h3, hrun⟩
  · obtain ⟨s, rfl⟩ : ∃ s, m = some s := by
      cases m with
      | none => exact absurd (.inl rfl) hm
      | some s => exact ⟨s, rfl⟩
    have hs : s ≠ "latin" := fun e => hm (.inr (by rw [e]))
    obtain ⟨-, col, -, key⟩ := C87_gaussian priorFlat prior_once setValuesDefault false s hs d hd' n u f pre chunk r w h
    obtain ⟨lo, hi', -, -, mid, sd, -, -, key⟩ := key "npp0" hS
    exact ⟨⟨_, (key i cfg hi .emiconc).1 h1⟩, (key i cfg hi .thermal).2 h2, (key i cfg hi .carbon).2 h3, hrun⟩

/-- There are such configurations. -/
example : ∃ d r w, Sampling.construct none none none none = .ok d ∧
    make (F := ℝ) d 3 (fun i j => ((i + j : ℕ) : ℝ) / 100) none "a" (some 2) = .ok (r, w) ∧
    ∃ cfg ∈ allConfigs r, ∃ v, Dict.get? cfg.sets.emiconc "npp0" = some v := by
  obtain ⟨d, r, w, hd, h⟩ := C87_default 3 (by decide) (fun i j => ((i + j : ℕ) : ℝ) / 100) none "a" (some 2) (by decide)
  have hl := (C87_latin priorFlat prior_once setValuesDefault false none (.inl rfl) d hd 3 _ none "a" (some 2) r w h).1
  refine ⟨d, r, w, hd, h, ?_⟩
  cases hr : allConfigs r with
  | nil => rw [hr] at hl; simp at hl
  | cons c l => exact ⟨c, by simp, (C45_npp0_false none 3 _ none "a" (some 2) d r w hd h c (by rw [hr]; simp)).1⟩

/-- **C45** fails for a fixed response parameter, which is put in the emission/concentration set (`C45_fixed_false`): there no
run reacts to it. -/
theorem C45_fixed_response_false {k : String} (hk : IsResponseName k) {κ τ : Type} (cops : CarbonOps ℝ κ) (tops : ThermalOps ℝ τ)
    (D : Driver ℝ κ) (cfg : Config ℝ) :
    run cops tops D (runPams cfg) =
      run cops tops D { runPams cfg with emiconc := some (Dict.erase (asPams cfg.sets.emiconc) k) } := by
  refine (C45_unread cops tops D _ _ _ ?_).symm
  intro h
  have hb := (startsRbRs_iff k).2 hk
  have all : ∀ a ∈ handlerRead, startsRbRs a = false := by decide +kernel
  rw [all k h] at hb
  exact Bool.noConfusion hb

example : IsResponseName "rb_coef0" := ⟨"coef0", .inl (by decide)⟩

end Verif.Props
