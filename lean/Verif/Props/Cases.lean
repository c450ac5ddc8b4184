import Verif.Props.C13
import Verif.Props.C14
import Verif.Props.C15
import Verif.Props.C17
import Verif.Props.C18_C19
import Verif.Props.C22_C23
import Verif.Props.C24_C25
import Verif.Props.C27
import Verif.Props.C29_C32
import Verif.Props.C40_C41_C57
import Verif.Props.C44_C45
import Verif.Props.C46
import Verif.Props.C49_C50
import Verif.Props.C56
import Verif.Props.C60
import Verif.Props.C65_C66

/-!
# Further concrete cases

Theorems whose own file does not show a case of its own: each one is applied by name to a concrete,
non-trivial case.
-/

namespace Verif.Props.Cases
open Verif.Py Verif.Model Verif.Spec Verif.Props

/-! ## C13, C14: decay with a source -/

/-- A year of decay at rate 1/10 with source 5/2 (equilibrium 25), from 7. -/
noncomputable def after (c : ℝ) : ℝ := (5 / 2) / (1 / 10) + (c - (5 / 2) / (1 / 10)) * Real.exp (-(1 / 10))

theorem after_year (c : ℝ) : AfterOneYear (5 / 2) (1 / 10) c (after c) :=
  (Handler.afterOneYear_iff (by norm_num)).2 rfl

example : min 7 ((5 / 2 : ℝ) / (1 / 10)) ≤ after 7 ∧ after 7 ≤ max 7 ((5 / 2 : ℝ) / (1 / 10)) :=
  C13_between (by norm_num) (after_year 7)

example : |after 7 - (5 / 2 : ℝ) / (1 / 10)| < |7 - (5 / 2 : ℝ) / (1 / 10)| :=
  C13_closer (by norm_num) (after_year 7) (by norm_num)

example : 0 ≤ after 7 := C13_nonneg (by norm_num) (after_year 7) (by norm_num) (by norm_num)

example : after 7 < after 8 := C13_mono_prior (by norm_num) (after_year 7) (after_year 8) (by norm_num)

example : after 7 < 3 / (1 / 10) + (7 - 3 / (1 / 10)) * Real.exp (-(1 / 10)) :=
  C13_mono_source (s' := 3) (by norm_num) (after_year 7) ((Handler.afterOneYear_iff (by norm_num)).2 rfl) (by norm_num)

example : after (5 / 2 / (1 / 10)) = 5 / 2 / (1 / 10) := C13_equilibrium (by norm_num) (after_year _)

example : Filter.Tendsto (fun n => after^[n] 7) Filter.atTop (nhds ((5 / 2 : ℝ) / (1 / 10))) :=
  C13_converges (by norm_num) _ (fun n => by rw [Function.iterate_succ_apply']; exact after_year _)

/-- The series of the example of C14, from a run of the precalculation. -/
theorem decay_series : ∃ v, DecaySeries (fun _ => 7) (fun _ => 4) 1 2 10 2000 2003 2005 v := by
  obtain ⟨rows, h⟩ := precalc_total (gas := [("X", exX)]) (exPam_run 2003)
    (exCovers 2003 (by omega) (by omega)) (gases := ["X"]) (by simp [exConcIn]) (by simp [exEmis])
  obtain ⟨v, -, hv⟩ := (C14_series_partial h (exPam_run _) (exCovers 2003 (by omega) (by omega)) (by omega)).2 "X"
    (by simp) exX rfl (by norm_num [exX])
  exact ⟨v, by simpa [exConcIn, exEmis, exX] using hv⟩

example : ∃ v, DecaySeries (fun _ => 7) (fun _ => 4) 1 2 10 2000 2003 2005 v ∧ ∀ y, 2000 ≤ y → y ≤ 2005 → 0 ≤ v y := by
  obtain ⟨v, hv⟩ := decay_series
  exact ⟨v, hv, C14_nonneg hv (by norm_num) (by norm_num) (by norm_num) (fun _ _ _ => by norm_num) (fun _ _ => by norm_num)⟩

/-! ## C15: more halogen, no positive forcing -/

example : ozoneDepletion 0.5 [("CFC-11", 3), ("CFC-12", 2)] [("H-1211", 1)] (fun _ => 0)
    (fun c => if c = "CFC-11" then 250 else 0) ≤ 0 :=
  C15_nonpos (by norm_num) (by simp) (by simp) (fun g _ => by split <;> norm_num)

/-! ## C17: methane lifetime -/

example : ∃ q s, Handler.decayRate (exCh4 "TAR") "CH4" 1751 2001 = .ok q ∧ OhScaling (exCh4 "TAR") 1751 2001 s ∧
    (q < 1 / 120 + 1 / 160 ↔ s < 0) := by
  obtain ⟨q, hq⟩ := exCh4_runs "TAR" 1751
  obtain ⟨s, h1, h2⟩ := C17_tar_sign hq (exCh4_mode _) (exCh4_gas _) (by norm_num)
  exact ⟨q, s, hq, h1, h2⟩

example : Handler.decayRate (exCh4 "CONSTANT_12") "CH4" 900 2001 = .ok (1 / 12 + 1 / 120 + 1 / 160) := by
  obtain ⟨q, hq⟩ := exCh4_runs "CONSTANT_12" 900
  obtain ⟨-, g, hg, h⟩ := C17_constant_partial (exCh4_mode _) hq hq
  rw [exCh4_gas, Option.some.injEq] at hg
  rw [hq, h, ← hg]

example : Handler.decayRate (exCh4 "CONSTANT") "CH4" 900 2001 = .ok (1 / 10 + 1 / 120 + 1 / 160) := by
  obtain ⟨q, hq⟩ := exCh4_runs "CONSTANT" 900
  obtain ⟨g, hg, h⟩ := C17_unknown_partial (exCh4_mode _) (by simp) (by simp) (by simp) hq
  rw [exCh4_gas, Option.some.injEq] at hg
  rw [hq, h, ← hg]

example : Handler.decayRate (exCh4 "WIGLEY") "CH4" 1700 2001 = .ok (1 / 10 + 1 / 120 + 1 / 160) := by
  obtain ⟨q, hq⟩ := exCh4_runs "WIGLEY" 1700
  obtain ⟨g, mode, k, hg, hm, h, -, -, hw, -⟩ := C17_rate hq
  rw [exCh4_gas, Option.some.injEq] at hg
  rw [exCh4_mode, Option.some.injEq] at hm
  rw [hq, h, hw hm.symm, ← hg]
  norm_num

/-! ## C18, C23, C24: carbon cycle -/

example : (278 : ℝ) < (Carbon.co2em2conc { (Carbon.Pams.default 24 351 : Carbon.Pams ℝ) with idtm := 1 }
    (Carbon.initState { (Carbon.Pams.default 24 351 : Carbon.Pams ℝ) with idtm := 1 }) 0 10 none).xCO2 := by
  have h := C18_not_constant { (Carbon.Pams.default 24 351 : Carbon.Pams ℝ) with idtm := 1 } rfl 10 none
    (C24_solubility_range _ (by norm_num [Carbon.Pams.default]) _).1
    (lt_of_lt_of_le (by norm_num [Carbon.Pams.default]) (C24_mixed_min _ _)) (by norm_num)
  norm_num [Carbon.Pams.default] at h ⊢
  exact h

example : Box.co2em2conc { (Box.Pams.default : Box.Pams ℝ) with beta_f := 7, ocean_exchange_rate := 3 } Box.reset 0 (some 0)
    = Box.reset :=
  C23_rest_general _ (by norm_num [Box.Pams.default]) (by norm_num [Box.Pams.default]) _ (.inr rfl)

example : Box.calculateNpp (Box.Pams.default : Box.Pams ℝ) 278 10 = 59 := by
  rw [C23_npp_value] <;> norm_num [Box.Pams.default]

example : Carbon.sigmoidGen (1 : ℝ) 0.5 7 < Carbon.sigmoidGen 2 0.5 7 ∧
    Carbon.thresholdGen (2 : ℝ) 4 7 < Carbon.thresholdGen 1 4 7 :=
  ⟨C24_sigmoid_strictMono 0.5 (by norm_num) (by norm_num), C24_threshold_strictAnti 4 (by norm_num) (by norm_num)⟩

/-! ## C30 – C32: two-layer model -/

open TwoLayer in
example (n : ℕ) : (forcedRun Pams.default (fun _ => 1.2) (fun m => 2 * (m : ℝ) + 3 * 1) n).temp_fast
    = 2 * (forcedRun Pams.default (fun _ => 1.2) (fun m => (m : ℝ)) n).temp_fast
      + 3 * (forcedRun Pams.default (fun _ => 1.2) (fun _ => 1) n).temp_fast :=
  (C30_linear Pams.default (by norm_num [Pams.default]) (by norm_num [Pams.default]) 2 3 _ _ _ n).1

open TwoLayer in
example : (energyBudget (Pams.default : Pams ℝ) (init Pams.default) 2 2 (List.replicate 12 (-1)) (List.replicate 12 (-1)))
    = energyBudget Pams.default (init Pams.default) (2 + 2 * -1) (2 + 2 * -1) (List.replicate 12 0) (List.replicate 12 0) :=
  C31_twolayer_doubles_volcanic_partial _ _ _ _ (by norm_num)

open TwoLayer in
example : let o := (energyBudget (Pams.default : Pams ℝ) (init Pams.default) 2 2 [0] [0]).2
    o.OHC700 = heatAbove Pams.default 700 o.dtemp_fast o.dtemp_slow :=
  C32_ohc700 _ (by norm_num [Pams.default]) (by norm_num [Pams.default]) _ _ _ _ _

open TwoLayer in
example : let p : Pams ℝ := { Pams.default with deep := 500 }
    let o := (energyBudget p (init p) 2 2 [0] [0]).2
    o.OHC700 = o.OHCTOT :=
  C32_shallow _ (by norm_num [Pams.default]) (by norm_num) (by norm_num [Pams.default]) _ _ _ _ _

open TwoLayer in
example : let o := (energyBudget (Pams.default : Pams ℝ) (init Pams.default) 2 2 [0] [0]).2
    0 ≤ o.OHC700 ∧ o.OHC700 ≤ o.OHCTOT := by
  refine C32_bounds _ (by norm_num [Pams.default]) (by norm_num [Pams.default]) _ _ _ _ _ ?_ ?_ <;>
    norm_num [energyBudget, output, cFast, cSlow, secYear, init, Pams.default, step, forcing, mean, fsum]

/-! ## C44 – C46, C58: ensembles -/

section
open ConfigDistro

example : ∃ cs w, makeConfigLists (init false ["qbc", "W"] ([] : Dict ℕ)) (List.replicate 5 id) 5 none "run" (some 9) = .ok (.single cs, w) ∧ cs.length < 9 := by
  obtain ⟨r, w, h, -⟩ := C44_partition (init false ["qbc", "W"] ([] : Dict ℕ)) (List.replicate 5 id) none "run" (some 9) (by simp)
  cases r with
  | single cs => exact ⟨cs, w, h, C44_unsplit _ _ _ _ _ _ _ h 9 rfl⟩
  | chunks cs =>
    simp only [makeConfigLists, List.length_replicate, show (5 : ℕ) < 9 by norm_num, if_true] at h
    cases hm : makeSingle (init false ["qbc", "W"] ([] : Dict ℕ)) (List.replicate 5 id) 5 none "run" with
    | error e => rw [hm] at h; cases h
    | ok v => rw [hm] at h; cases h

example : ∃ cs w, makeConfigLists (init false ["qbc", "W"] ([] : Dict ℕ)) (List.replicate 5 id) 5 (some "a.json") "run" (some 2) = .ok (.chunks cs, w) ∧
    (∀ c ∈ cs, c ≠ [] ∧ c.length ≤ 2) ∧ w.map Written.configs = cs ∧
    w.map Written.name = (List.range cs.length).map (chunkFname "a.json") := by
  have h := makeConfigLists_chunks (init false ["qbc", "W"] ([] : Dict ℕ)) (List.replicate 5 id)
    (m := 2) (by omega) (by simp) (some "a.json") "run"
  exact ⟨_, _, h, C44_chunk_size _ _ _ _ 2 (by omega) _ _ h, C58_file_contents _ _ _ _ 2 (by omega) (by simp) _ _ h⟩

example (row : ℕ → ℕ) : Dict.get? (setOf (sampleSets (init false ["W", "lm"] [("lm", 40)]) row) .thermal) "lm" = some 40 ∧
    (∃ j, Dict.get? (setOf (sampleSets (init false ["W", "lm"] [("lm", 40)]) row) .thermal) "W" = some (row j)) ∧
    Dict.get? (setOf (sampleSets (init false ["W", "lm"] [("lm", 40)]) row) .emiconc) "qbc" = none := by
  refine ⟨(C45_fixed_partial false _ _ (by simp [Dict.WF, Dict.keys]) row "lm" 40 rfl ?_ .thermal).1 (.thermal (by decide)),
    ?_,
    C45_nothing_else false _ _ row "qbc" (by simp [Dict.keys]) ?_ .emiconc⟩
  · rw [← startsRbRs_iff]; decide
  · obtain ⟨j, hj⟩ := List.mem_iff_getElem?.1
      ((C45_sampled_names false ["W", "lm"] [("lm", 40)] "W").2 (by simp [Dict.keys]))
    exact ⟨j, (C45_sampled false _ (by simp) _ row j "W" hj .thermal).1 (.thermal (by decide))⟩
  · rw [C45_sampled_names]; simp

end

section
open Distribution

example : construct (fun n => if n = "old.json" then some (.arr [.obj [("Index", .str "0")]]) else none) "old.json" (.error .other)
    = .ok (⟨.arr [.obj [("Index", .str "0")]], .null⟩ : DistRun ℚ) :=
  C46_legacy _ _ _ _ rfl

example : construct (fun n => if n = "x.json" then some (.obj [("cfgs", .arr [])]) else none) "x.json" (.error .other)
    = (.error .valueError : Except PyErr (DistRun ℚ)) :=
  C46_rejects _ _ _ _ rfl (fun l h => by cases h) (fun d h => by cases h; simp [Dict.keys])

end

/-! ## C49, C50: reading tables -/

section
open InputHandler Exec Spec.Inputs

example : ∃ t', cutYears fileConc 2000 2004 = .ok t' ∧ Contiguous t' 2000 2004 ∧ t'.at' "CO2" 1999 = .error .keyError := by
  obtain ⟨t', h1, -, h2, h3⟩ := C49_cut (t := fileConc) (first := 1995) (last := 2020) (start := 2000) (stop := 2004)
    rfl (by decide) (by decide) (by decide)
  exact ⟨t', h1, h2, by rw [h3, if_neg (by decide)]⟩

example : cutYears fileConc 2030 2040 = .error .keyError :=
  C49_beyond (first := 1995) (last := 2020) rfl (by decide) (.inl (by decide))

example : readYearRows (fileRows 1 252) 1750 2004 = .error .valueError :=
  C50_short _ (by decide) (by decide) (by decide +kernel)

end

/-! ## C56: rejected names -/

example : Factory.createCarbonCycleModel (.str "Box" : PyVal ℚ) = .error .valueError ∧
    Factory.createThermalModel (.str "udm" : PyVal ℚ) = .error .valueError :=
  ⟨C56_carbon_rejects _ (by simp) (by simp), C56_thermal_rejects _ (by simp) (by simp)⟩

/-! ## C60: rising concentrations -/

example : co2Forcing 400 278 335 270 < co2Forcing 420 278 335 270 ∧
    n2oForcing 330 270 420 278 1900 722 < n2oForcing 335 270 420 278 1900 722 ∧
    ch4Forcing 1800 722 335 270 < ch4Forcing 1900 722 335 270 :=
  ⟨C60_co2_increasing_partial (by norm_num) (by norm_num) (by norm_num) (by norm_num [abs_of_pos])
      (by norm_num [abs_of_pos]) (by norm_num),
    C60_n2o_increasing (by norm_num) (by norm_num) (by norm_num) (by norm_num),
    C60_ch4_increasing (M := 2000) (by norm_num) (by norm_num) (by norm_num) (by norm_num) (by norm_num) (by norm_num)⟩

/-! ## C66: the aerosol weight of a forcing table -/

/-- A forcing table with an aerosol column. -/
noncomputable def aeroTable : Frame ℝ := ⟨["CO2", "BC"], [2000], fun c _ => if c = "CO2" then 3 else -1⟩

example : ∃ w, (InputHandler.forcWeights aeroTable).at' "w_aero" 2000 = .ok w ∧ 0 ≤ w ∧ w ≤ 1 := by
  have e : InputHandler.aeroCols ["CO2", "BC"] = ["BC"] := by decide +kernel
  have h : ∃ w, (InputHandler.forcWeights aeroTable).at' "w_aero" 2000 = .ok w := by
    refine ⟨_, frame_at'_eq_ok.2 ⟨?_, ?_, rfl⟩⟩ <;>
      simp [InputHandler.forcWeights, aeroTable, e, InputHandler.setColumn]
  obtain ⟨w, hw⟩ := h
  have := C66_weight (t := aeroTable) (by simp [aeroTable]) (y := 2000) (by simp [aeroTable]) hw
  exact ⟨w, hw, this.1, this.2.1⟩

section
open InputHandler Exec Spec.Inputs

/-- Files with a table of forcing components. -/
noncomputable def forcFiles : Files ℝ :=
  { present := fun p => decide (p ∈ ["forc.txt", "data/IPCC_LUCalbedo.txt"])
    gaspam := fun _ => .error .fileNotFound
    column := fun _ => .error .fileNotFound
    table := fun _ => .error .fileNotFound
    years := fun _ => .ok (List.replicate 300 [0])
    forcFirst := fun _ => .ok true
    forcTable := fun _ => .ok ⟨["CO2", "BC"], pyRange 1995 2021, fun c _ => if c = "CO2" then 3 else -1⟩
    pert := fun _ => .ok []
    header := fun _ => .error .fileNotFound
    defaultDir := "data"
    cwd := "work"
    nan := 0 }

/-- A forcing-driven configuration. -/
noncomputable def forcCfg : Dict (CfgVal ℝ) :=
  [("nystart", .val (.int 2000)), ("nyend", .val (.int 2004)), ("forc_file", .val (.str "forc.txt"))]

example : ∃ (d : Driver.Driver ℝ Unit) (u : Frame ℝ), build noCarbon ThermalInst.twoLayerOps forcFiles forcCfg = .ok d ∧
    d.source = .forcing (.frame u) ∧ u.at' "total" 2003 = .ok 2 := by
  have hb : okB (build noCarbon ThermalInst.twoLayerOps forcFiles forcCfg) = true := by decide +kernel
  obtain ⟨d, hd⟩ := (okB_iff _).1 hb
  obtain ⟨u, h1, h2⟩ := C66_components_partial (p := "forc.txt") (by unfold Dict.WF; decide +kernel) hd rfl
    (by decide +kernel) rfl rfl (by decide) (by decide)
  refine ⟨d, u, hd, h1, ?_⟩
  rw [h2 2003 (mem_pyRange.2 (by decide)) "total" (by decide)]
  congr 1
  simp
  norm_num

end

/-! ## C27: flat keys that do not fit together -/

section
open Flat FlatPams

/-- Two land coefficients and one time. -/
theorem flat_case : GivesFlat (V := ℕ) (fun _ => false) [("rb_coef1", .val 7), ("rb_tim0", .val 3), ("rb_coef0", .val 5)]
      "rb_coef" [0, 1] [.val 5, .val 7] ∧
    GivesFlat (V := ℕ) (fun _ => false) [("rb_coef1", .val 7), ("rb_tim0", .val 3), ("rb_coef0", .val 5)]
      "rb_tim" [0] [.val 3] := by
  constructor
  · refine ⟨rfl, by simp, ?_, ?_, by simp⟩
    · intro j hj hj'
      have : j = 0 ∨ j = 1 := by simp at hj; omega
      rcases this with rfl | rfl
      · have : flatKey "rb_coef" 0 = "rb_coef0" := by decide
        simp [Dict.get?, this]
      · have : flatKey "rb_coef" 1 = "rb_coef1" := by decide
        simp [Dict.get?, this]
    · intro key hk hf
      simp only [Dict.keys, List.map_cons, List.map_nil, List.mem_cons, List.not_mem_nil, or_false] at hk
      rcases hk with rfl | rfl | rfl
      · exact ⟨1, by simp, by decide⟩
      · exact absurd hf (not_flat_fn _ _ (by decide))
      · exact ⟨0, by simp, by decide⟩
  · refine ⟨rfl, by simp, ?_, ?_, by simp⟩
    · intro j hj hj'
      have : j = 0 := by simp at hj; omega
      subst this
      have : flatKey "rb_tim" 0 = "rb_tim0" := by decide
      simp [Dict.get?, this]
    · intro key hk hf
      simp only [Dict.keys, List.map_cons, List.map_nil, List.mem_cons, List.not_mem_nil, or_false] at hk
      rcases hk with rfl | rfl | rfl
      · exact absurd hf (not_flat_fn _ _ (by decide))
      · exact ⟨0, by simp, by decide⟩
      · exact absurd hf (not_flat_fn _ _ (by decide))

example : Flat.processFlat (V := ℕ) (fun _ => false) [("rb_coef1", .val 7), ("rb_tim0", .val 3), ("rb_coef0", .val 5)]
    = .error .valueError :=
  C27_mismatch_rejected _ (by simp [Dict.WF, Dict.keys]) _ _ _ _ flat_case.1 flat_case.2 (by simp)

end

end Verif.Props.Cases
