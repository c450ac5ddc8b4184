import Verif.Props.C47
import Verif.Lemmas.InputErase

/-!
# C48: solar and volcanic forcing without `sunvolc`; C64: documented options that nobody reads
-/

namespace Verif.Props
open Verif.Py Verif.Py.Dict Verif.Model Verif.Model.Handler Verif.Model.Driver Verif.Model.InputHandler Verif.Spec.Inputs

section
variable {F κ τ : Type} [Add F] [Sub F] [Mul F] [Div F] [Neg F] [OfScientific F] [LT F] [DecidableLT F] [MathFn F]

omit [Add F] [Sub F] [Mul F] [Div F] [Neg F] [OfScientific F] [LT F] [DecidableLT F] [MathFn F] in
theorem firstColumn_replicate (n : ℕ) (x : F) : firstColumn (List.replicate n [x]) = .ok (List.replicate n x) := by
  unfold firstColumn
  rw [mapM_ok]
  simp

/-- Data wins over nothing: the zero series is what is read if no file is configured. -/
theorem zero_data {fs : Files F} {c : Dict (CfgVal F)} {ih : InputHandler.Handler F} (hc : WF c) (h : create fs c = .ok ih)
    (hs : ¬ SunVolc c) {what : String} (hw : what ∈ solarVolcanic) (hf : NoFile c what) :
    getData fs ih what = .ok (.rows (zeroRows (ih.nyend - ih.nystart + 1).toNat (if what = "rf_sun" then 1 else 12))) := by
  obtain ⟨S⟩ := create_stages h
  have hoff : sunvolcOn (cutAndCheckCfg requiredCfg c usedCfg) = false := by
    rw [cut_sunvolc hc, ← Bool.not_eq_true, sunvolcOn_iff]
    exact hs
  obtain ⟨-, z1, z2, z3⟩ := setDefaults_zero S.defaults hoff
  have hw' : what ∈ readMethods ∧ what ≠ "nat_ch4" ∧ what ≠ "nat_n2o" := by
    clear * - hw; revert what; decide
  obtain ⟨⟨k1, k2⟩, -⟩ := input_keys (F := F) hw'.1
  have e1 : Dict.get? S.cfg2 (what ++ "_file") = none := by
    rw [z3 (what ++ "_file") (by clear * - hw; revert what; decide +kernel), get?_cutAndCheckCfg hc k2 k1, hf]
  have e2 : Dict.get? S.cfg2 (what ++ "_data") =
      some (.data (.rows (zeroRows (ih.nyend - ih.nystart + 1).toNat (if what = "rf_sun" then 1 else 12)))) := by
    unfold solarVolcanic at hw
    simp only [List.mem_cons, List.not_mem_nil, or_false] at hw
    rcases hw with rfl | rfl | rfl
    · exact z1
    · exact z2 "rf_volc_n_data" (by simp)
    · exact z2 "rf_volc_s_data" (by simp)
  obtain ⟨v', h1, h2⟩ := (stored S (data_not_natural hw'.1 hw'.2.1 hw'.2.2)).2 _ e2
  rw [checkFile_other (input_suffix hw'.1).2 h1] at h2
  exact getData_data ((stored S (file_not_natural hw'.1)).1 e1) h2

theorem not_driverKey {k : String} (hk : k ∈ solarVolcanic.map (· ++ "_file") ∨ k = "sunvolc") : k ∉ driverKeys := by
  rcases hk with hk | rfl
  · revert k; decide +kernel
  · decide

theorem sunVolc_congr {c c' : Dict (CfgVal F)} (h : Dict.get? c "sunvolc" = Dict.get? c' "sunvolc") : SunVolc c ↔ SunVolc c' := by
  unfold SunVolc; rw [h]

/-- **C48** If `sunvolc` is absent or different from 1 and no solar or volcanic *file* is configured, the model object has
zero solar and volcanic forcing in every year, whatever data are configured. Missing part: as coded a configured file is
used although `sunvolc` is not 1 (`C48_false`). -/
theorem C48_partial {cops : CarbonOps F κ} {tops : ThermalOps F τ} {fs : Files F} {c : Dict (CfgVal F)} {d : Driver F κ}
    (hc : WF c) (h : build cops tops fs c = .ok d) (hs : ¬ SunVolc c) (hf : ∀ w ∈ solarVolcanic, NoFile c w) :
    let n := (d.nyend - d.nystart + 1).toNat
    d.sun = List.replicate n 0.0 ∧ d.volcN = zeroRows n 12 ∧ d.volcS = zeroRows n 12 := by
  obtain ⟨B⟩ := built hc h
  have hs' : ¬ SunVolc B.cfg := by
    rw [sunVolc_congr (B.same "sunvolc" (not_driverKey (Or.inr rfl)))]; exact hs
  have hf' : ∀ w ∈ solarVolcanic, NoFile B.cfg w := by
    intro w hw
    exact (B.same _ (not_driverKey (Or.inl (List.mem_map_of_mem hw)))).trans (hf w hw)
  have z : ∀ w ∈ solarVolcanic, getData fs B.ih w =
      .ok (.rows (zeroRows (d.nyend - d.nystart + 1).toNat (if w = "rf_sun" then 1 else 12))) := by
    intro w hw
    rw [zero_data B.wf B.create hs' hw (hf' w hw), B.start, B.stop]
  obtain ⟨rs, h1, h2⟩ := B.sun
  have z1 := z "rf_sun" (by decide)
  have z2 := z "rf_volc_n" (by decide)
  have z3 := z "rf_volc_s" (by decide)
  rw [h1, Except.ok.injEq, Data.rows.injEq] at z1
  rw [B.volcN, Except.ok.injEq, Data.rows.injEq] at z2
  rw [B.volcS, Except.ok.injEq, Data.rows.injEq] at z3
  refine ⟨?_, z2, z3⟩
  rw [z1] at h2
  have : firstColumn (zeroRows (d.nyend - d.nystart + 1).toNat (if "rf_sun" = "rf_sun" then 1 else 12)) =
      .ok (List.replicate (d.nyend - d.nystart + 1).toNat (0.0 : F)) := firstColumn_replicate _ _
  rw [this, Except.ok.injEq] at h2
  exact h2.symm

/-- **C64** as coded does not hold: the documented options `rf_volc_file`, `carbon_cycle`, `rs_function` and
`rb_function` (and `rf_volc_data`) are never read. The model object built from a configuration is the one built without
them. -/
theorem C64_unread_false (cops : CarbonOps F κ) (tops : ThermalOps F τ) (fs : Files F) (c : Dict (CfgVal F)) {k : String}
    (hk : k ∈ ["rf_volc_file", "rf_volc_data", "carbon_cycle", "rs_function", "rb_function"]) :
    build cops tops fs c = build cops tops fs (Dict.erase c k) := by
  have : k ∉ readKeys := by
    clear * - hk
    revert k
    decide +kernel
  exact (build_erase cops tops fs c this).symm

/-- **C64** Options outside the list below have no effect: the model object built is the same without them. -/
theorem C64_only_these_partial (cops : CarbonOps F κ) (tops : ThermalOps F τ) (fs : Files F) (c : Dict (CfgVal F)) {k : String}
    (hk : k ∉ ["nystart", "nyend", "emstart", "idtm", "carbon_cycle_model", "thermal_model", "sunvolc", "conc_run"])
    (hi : ∀ w ∈ inputs, k ≠ w ++ "_file" ∧ k ≠ w ++ "_data") :
    build cops tops fs (Dict.erase c k) = build cops tops fs c := by
  apply build_erase
  unfold readKeys
  rw [List.mem_append, not_or]
  refine ⟨hk, ?_⟩
  rw [List.mem_flatMap]
  rintro ⟨w, hw, h⟩
  simp only [List.mem_cons, List.not_mem_nil, or_false] at h
  rcases h with h | h
  · exact (hi w hw).1 h
  · exact (hi w hw).2 h

end

open Verif.Exec Verif.Model.ThermalInst

/-- **C48** as coded does not hold: `sunvolc` is not given, but a configured solar file is read. -/
theorem C48_false : ¬ ∀ (c : Dict (CfgVal ℚ)) (d : Driver ℚ ℚ), WF c → ¬ SunVolc c →
    build toyCarbon twoLayerOps toyFiles c = .ok d → ∀ x ∈ d.sun, x = 0 := by
  intro h
  have hb : okB (build toyCarbon twoLayerOps toyFiles (toyCfg [("rf_sun_file", str "sun.txt")])) = true := by decide +kernel
  obtain ⟨d, hd⟩ := (okB_iff _).1 hb
  have hsun : (match build toyCarbon twoLayerOps toyFiles (toyCfg [("rf_sun_file", str "sun.txt")]) with
      | .ok d => d.sun
      | .error _ => []) = [2000 / 100, 2001 / 100, 2002 / 100, 2003 / 100, 2004 / 100] := by decide +kernel
  rw [hd] at hsun
  have := h _ d (by unfold WF; decide +kernel) (by rintro ⟨v, hv, -⟩; cases hv) hd (2000 / 100) (by
    have : d.sun = [2000 / 100, 2001 / 100, 2002 / 100, 2003 / 100, 2004 / 100] := hsun
    rw [this]; simp)
  norm_num at this

/-- The hypotheses of `C48_partial` occur, with solar and volcanic data configured. -/
example : ∃ c : Dict (CfgVal ℚ), WF c ∧ (∃ d, build toyCarbon twoLayerOps toyFiles c = .ok d) ∧ ¬ SunVolc c ∧
    (∀ w ∈ solarVolcanic, NoFile c w) ∧ DataIs c "rf_sun" (.rows [[7], [7], [7], [7], [7]]) := by
  refine ⟨toyCfg [("sunvolc", .val (.int 0)), ("rf_sun_data", .data (.rows [[7], [7], [7], [7], [7]]))], ?_, ?_, ?_, ?_, rfl⟩
  · unfold WF; decide +kernel
  · rw [← okB_iff]; decide +kernel
  · rintro ⟨v, hv, h⟩
    rw [show Dict.get? (toyCfg [("sunvolc", CfgVal.val (.int 0)), ("rf_sun_data", .data (.rows [[7], [7], [7], [7], [7]]))]) "sunvolc"
      = some (.val (.int 0)) from rfl] at hv
    cases hv
    revert h
    decide +kernel
  · intro w hw
    unfold solarVolcanic at hw
    simp only [List.mem_cons, List.not_mem_nil, or_false] at hw
    rcases hw with rfl | rfl | rfl <;> rfl

/-- A configuration with response functions and a volcanic file: it builds, and they are dropped. -/
example : ∃ d, build toyCarbon twoLayerOps toyFiles (toyCfg [("rs_function", .val (.rfun [1] [2])), ("rf_volc_file", str "sun.txt")])
    = .ok d := by
  rw [← okB_iff]
  decide +kernel

end Verif.Props
