import Verif.Model.Factory
import Verif.Props.C01_C02
import Verif.Lemmas.Except

/-!
# C56: component selection is total and exact

All theorems hold for every number type and every Python value given as a name.
-/

namespace Verif.Props
open Verif.Py Verif.Py.Dict Verif.Model Verif.Model.Factory

variable {F : Type}

/-- C56: exactly "default" selects the impulse response carbon cycle, exactly "box" the box carbon
cycle. -/
theorem C56_carbon_exact (v : PyVal F) (kind : CarbonKind) :
    createCarbonCycleModel v = .ok kind ↔
      (v = .str "default" ∧ kind = .impulseResponse) ∨ (v = .str "box" ∧ kind = .box) := by
  unfold createCarbonCycleModel isStr
  cases v with
  | str s =>
    by_cases h1 : s = "default"
    · subst h1; simp [eq_comm]
    · by_cases h2 : s = "box"
      · subst h2; simp [eq_comm]
      · simp [h1, h2]
  | _ => simp

/-- C56: every other value (any string, number, `None`, object) is rejected with `ValueError`. -/
theorem C56_carbon_rejects (v : PyVal F) (h1 : v ≠ .str "default") (h2 : v ≠ .str "box") :
    createCarbonCycleModel v = .error .valueError := by
  unfold createCarbonCycleModel isStr
  cases v with
  | str s =>
    have a : s ≠ "default" := fun e => h1 (by rw [e])
    have b : s ≠ "box" := fun e => h2 (by rw [e])
    simp [a, b]
  | _ => simp

/-- C56: exactly "default" selects the upwelling-diffusion model, exactly "twolayer" the two-layer
model. -/
theorem C56_thermal_exact (v : PyVal F) (kind : ThermalKind) :
    createThermalModel v = .ok kind ↔
      (v = .str "default" ∧ kind = .upwellingDiffusion) ∨
      (v = .str "twolayer" ∧ kind = .twoLayer) := by
  unfold createThermalModel isStr
  cases v with
  | str s =>
    by_cases h1 : s = "default"
    · subst h1; simp [eq_comm]
    · by_cases h2 : s = "twolayer"
      · subst h2; simp [eq_comm]
      · simp [h1, h2]
  | _ => simp

/-- C56: every other value is rejected with `ValueError`. -/
theorem C56_thermal_rejects (v : PyVal F) (h1 : v ≠ .str "default") (h2 : v ≠ .str "twolayer") :
    createThermalModel v = .error .valueError := by
  unfold createThermalModel isStr
  cases v with
  | str s =>
    have a : s ≠ "default" := fun e => h1 (by rw [e])
    have b : s ≠ "twolayer" := fun e => h2 (by rw [e])
    simp [a, b]
  | _ => simp

theorem driverRequired_wf : WF (driverRequired : Dict (PyVal F)) := by
  simp [driverRequired, WF, keys]

theorem handlerRequired_wf [OfScientific F] [Neg F] [Div F] :
    WF (handlerRequired : Dict (PyVal F)) := by
  simp [handlerRequired, WF, keys]

theorem driverCfg_optional {cfg : Dict (PyVal F)} (hw : WF cfg) {k : String}
    (hk : k = "carbon_cycle_model" ∨ k = "thermal_model") :
    get? (driverCfg cfg) k = get? cfg k := by
  unfold driverCfg
  rw [C01_value _ _ _ driverRequired_wf hw]
  rcases hk with rfl | rfl <;> simp [driverRequired, driverUsed, get?, keys, Verif.Spec.sanitisedValue]

theorem driverCfg_required {cfg : Dict (PyVal F)} (hw : WF cfg) {k : String}
    (hk : k ∈ ["nystart", "nyend", "emstart", "idtm"]) : ∃ v, getE (driverCfg cfg) k = .ok v := by
  have hn : ∀ k v, get? (driverRequired : Dict (PyVal F)) k = some v → v.isNum = true := by
    intro k v h
    have := mem_of_get? h
    simp only [driverRequired, List.mem_cons, Prod.mk.injEq, List.not_mem_nil, or_false] at this
    rcases this with h | h | h | h <;> rw [h.2] <;> rfl
  obtain ⟨v, hv, _⟩ := C01_complete driverRequired cfg driverUsed driverRequired_wf hw hn k
    (by simpa [driverRequired, keys] using hk)
  exact ⟨v, by unfold getE driverCfg; rw [hv]⟩

/-- The name the user asked for: the value under the key, `"default"` if there is none. -/
def requestedName (cfg : Dict (PyVal F)) (key : String) : PyVal F :=
  (get? cfg key).getD (.str "default")

/-- The value of `carbon_cycle_model` survives the handler's own parameter check. -/
theorem checkPamset_carbon [OfScientific F] [Neg F] [Div F] {p : Dict (PyVal F)} (hw : WF p)
    {v : PyVal F} (hv : get? p "carbon_cycle_model" = some v) :
    getE (checkPamset (some p)) "carbon_cycle_model" = .ok v := by
  unfold checkPamset
  dsimp only [Option.getD_some]
  have key : ∀ q : Dict (PyVal F), WF q → get? q "carbon_cycle_model" = some v →
      getE (cutAndCheckPamset handlerRequired
        (if q.has "carbon_cycle_model" then q else q.set "carbon_cycle_model" (.str "default"))
        handlerUsed) "carbon_cycle_model" = .ok v := by
    intro q hq hqv
    have hh : q.has "carbon_cycle_model" = true := by unfold has; rw [hqv]; rfl
    rw [if_pos hh]
    unfold getE
    rw [C01_value _ _ _ handlerRequired_wf hq, hqv]
    simp [handlerRequired, handlerUsed, get?, keys, Verif.Spec.sanitisedValue]
  by_cases hl : p.has "lifetime_mode"
  · rw [if_pos hl]; exact key p hw hv
  · rw [if_neg hl]
    exact key _ (WF_set _ _ _ hw) (by rw [get?_set]; simpa using hv)

/-- C56: construction of a model uses exactly the component names in the user's configuration
(`"default"` where none is given): it yields the components these names select, and it fails with
`ValueError` if one of them names no component. -/
theorem C56_user_choice [OfScientific F] [Neg F] [Div F] (cfg : Dict (PyVal F)) (hw : WF cfg) :
    chooseComponents cfg =
      match createThermalModel (requestedName cfg "thermal_model"),
        createCarbonCycleModel (requestedName cfg "carbon_cycle_model") with
      | .ok t, .ok c => .ok (t, c)
      | _, _ => .error .valueError := by
  unfold chooseComponents
  have ht : thermalName (driverCfg cfg) = requestedName cfg "thermal_model" := by
    unfold thermalName requestedName
    rw [driverCfg_optional hw (.inr rfl)]
    cases get? cfg "thermal_model" <;> rfl
  have hc : carbonName (driverCfg cfg) = requestedName cfg "carbon_cycle_model" := by
    unfold carbonName requestedName
    rw [driverCfg_optional hw (.inl rfl)]
    cases get? cfg "carbon_cycle_model" <;> rfl
  have hem : ∃ p, driverEmiconc (driverCfg cfg) = .ok p ∧ WF p ∧
      get? p "carbon_cycle_model" = some (requestedName cfg "carbon_cycle_model") := by
    obtain ⟨a, ha⟩ := driverCfg_required hw (k := "emstart") (by simp)
    obtain ⟨b, hb⟩ := driverCfg_required hw (k := "nystart") (by simp)
    obtain ⟨c, hc'⟩ := driverCfg_required hw (k := "nyend") (by simp)
    obtain ⟨d, hd⟩ := driverCfg_required hw (k := "idtm") (by simp)
    unfold driverEmiconc
    dsimp only
    rw [ha, bind_ok, hb, bind_ok, hc', bind_ok, hd, bind_ok, hc]
    refine ⟨_, rfl, ?_, ?_⟩
    · exact WF_set _ _ _ (WF_set _ _ _ (WF_set _ _ _ (WF_set _ _ _ (by simp [WF, keys]))))
    · simp [get?_set, get?]
  obtain ⟨p, hp, hpw, hpc⟩ := hem
  dsimp only
  rw [ht, hp]
  by_cases h1 : requestedName cfg "thermal_model" = .str "default" ∨
      requestedName cfg "thermal_model" = .str "twolayer"
  · have hk : ∃ t, createThermalModel (requestedName cfg "thermal_model") = .ok t := by
      rcases h1 with h | h
      · exact ⟨.upwellingDiffusion, (C56_thermal_exact _ _).2 (.inl ⟨h, rfl⟩)⟩
      · exact ⟨.twoLayer, (C56_thermal_exact _ _).2 (.inr ⟨h, rfl⟩)⟩
    obtain ⟨t, ht'⟩ := hk
    rw [ht', bind_ok, bind_ok, checkPamset_carbon hpw hpc, bind_ok]
    by_cases h2 : requestedName cfg "carbon_cycle_model" = .str "default" ∨
        requestedName cfg "carbon_cycle_model" = .str "box"
    · have hk : ∃ t, createCarbonCycleModel (requestedName cfg "carbon_cycle_model") = .ok t := by
        rcases h2 with h | h
        · exact ⟨.impulseResponse, (C56_carbon_exact _ _).2 (.inl ⟨h, rfl⟩)⟩
        · exact ⟨.box, (C56_carbon_exact _ _).2 (.inr ⟨h, rfl⟩)⟩
      obtain ⟨c, hc'⟩ := hk
      rw [hc']; rfl
    · rw [C56_carbon_rejects _ (fun e => h2 (.inl e)) (fun e => h2 (.inr e))]; rfl
  · rw [C56_thermal_rejects _ (fun e => h1 (.inl e)) (fun e => h1 (.inr e))]; rfl

/-- A configuration asking for the two-layer ocean and the box carbon cycle gets them. -/
example [OfScientific F] [Neg F] [Div F] :
    chooseComponents ([("nyend", .int 2100), ("thermal_model", .str "twolayer"),
      ("carbon_cycle_model", .str "box")] : Dict (PyVal F)) = .ok (.twoLayer, .box) := by
  rw [C56_user_choice _ (by simp [WF, keys])]
  simp [requestedName, get?, createThermalModel, createCarbonCycleModel, isStr]

/-- A misspelt name is rejected. -/
example [OfScientific F] [Neg F] [Div F] :
    chooseComponents ([("thermal_model", .str "two-layer")] : Dict (PyVal F))
      = .error .valueError := by
  rw [C56_user_choice _ (by simp [WF, keys])]
  simp [requestedName, get?, createThermalModel, isStr]

end Verif.Props
