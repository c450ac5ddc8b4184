import Verif.Props.C48
import Verif.Exec.OptionRun

/-!
# C64: every option that is read can change the results

For each of the options that `C64_only_these_partial` leaves, two configurations that differ in this option only and whose runs
end with different results. The kernel executes both runs; the numbers are rational numbers with stand-ins for the
transcendental functions (`Verif/Py/RatInst.lean`), so the witnesses show that the value of the option reaches the results.
-/

namespace Verif.Props
open Verif.Py Verif.Py.Dict Verif.Model Verif.Model.InputHandler Verif.Spec.Inputs Verif.Exec

/-- A configuration driven by emissions, and others. -/
def byEmissions : Dict (CfgVal ℚ) := optionYears ++ optionTables
def byConcentrations : Dict (CfgVal ℚ) := byEmissions ++ [("conc_run", .val (.bool true))]
def withSun : Dict (CfgVal ℚ) := byConcentrations ++ [("sunvolc", .val (.int 1))]
def volcanoFiles : Dict (CfgVal ℚ) := withSun ++ [("rf_volc_s_file", str "1"), ("rf_volc_n_file", str "1")]
def volcanoData : Dict (CfgVal ℚ) :=
  withSun ++ [("rf_volc_s_data", .data (.rows (optionRows 1 12 2))), ("rf_volc_n_data", .data (.rows (optionRows 1 12 2)))]

/-- A solver of the diffusion model (of no importance here). -/
def zeroSolver : UDM.Solver ℚ := fun _ _ _ _ _ => .ok fun _ => 0

/-- For each option a configuration and two values. -/
def optionTrials : List (Dict (CfgVal ℚ) × String × CfgVal ℚ × CfgVal ℚ) :=
  [(byConcentrations, "nystart", .val (.int 2009), .val (.int 2008)),
   (byConcentrations, "nyend", .val (.int 2010), .val (.int 2011)),
   (byEmissions, "emstart", .val (.int 2010), .val (.int 2011)),
   (byEmissions, "idtm", .val (.int 1), .val (.int 2)),
   (byEmissions, "carbon_cycle_model", str "default", str "box"),
   (optionYears ++ [("forc_data", .data (.array [1, 1]))], "thermal_model", str "twolayer", str "default"),
   (byConcentrations, "sunvolc", .val (.int 0), .val (.int 1)),
   (byEmissions, "conc_run", .val (.bool false), .val (.bool true)),
   (optionYears, "forc_file", str "1", str "2"),
   (optionYears, "forc_data", .data (.array [1, 1]), .data (.array [1, 2])),
   (byConcentrations, "gaspam_file", str "1", str "2"),
   (byConcentrations, "gaspam_data", .data (.gases (optionGas 1)), .data (.gases (optionGas 2))),
   (byEmissions, "nat_ch4_file", str "1", str "2"),
   (byEmissions, "nat_ch4_data", .data (.table ⟨["CH4"], [2009, 2010], fun _ _ => 1⟩),
    .data (.table ⟨["CH4"], [2009, 2010], fun _ _ => 2⟩)),
   (byEmissions, "nat_n2o_file", str "1", str "2"),
   (byEmissions, "nat_n2o_data", .data (.table ⟨["N2O"], [2009, 2010], fun _ _ => 1⟩),
    .data (.table ⟨["N2O"], [2009, 2010], fun _ _ => 2⟩)),
   (byConcentrations, "concentrations_file", str "1", str "2"),
   (byConcentrations, "concentrations_data", .data (.table (optionConc 1)), .data (.table (optionConc 2))),
   (byConcentrations, "emissions_file", str "1", str "2"),
   (byConcentrations, "emissions_data", .data (.table (optionEmis 1 ["CO2_FF", "CO2_AFOLU"])),
    .data (.table (optionEmis 2 ["CO2_FF", "CO2_AFOLU"]))),
   (byEmissions, "perturb_em_file", str "1", str "2"),
   (byEmissions, "perturb_em_data", .data (.pert (optionPert 1)), .data (.pert (optionPert 2))),
   (byConcentrations, "perturb_forc_file", str "1", str "2"),
   (byConcentrations, "perturb_forc_data", .data (.pert (optionPert 1)), .data (.pert (optionPert 2))),
   (byConcentrations, "rf_luc_file", str "1", str "2"),
   (byConcentrations, "rf_luc_data", .data (.rows (optionRows 1 1 2)), .data (.rows (optionRows 2 1 2))),
   (withSun, "rf_sun_file", str "1", str "2"),
   (withSun, "rf_sun_data", .data (.rows (optionRows 1 1 2)), .data (.rows (optionRows 2 1 2))),
   (volcanoFiles, "rf_volc_n_file", str "1", str "2"),
   (volcanoFiles, "rf_volc_s_file", str "1", str "2"),
   (volcanoData, "rf_volc_n_data", .data (.rows (optionRows 1 12 2)), .data (.rows (optionRows 2 12 2))),
   (volcanoData, "rf_volc_s_data", .data (.rows (optionRows 1 12 2)), .data (.rows (optionRows 2 12 2)))]

/-- Do both configurations run, with different results? -/
def trialDiffers (t : Dict (CfgVal ℚ) × String × CfgVal ℚ × CfgVal ℚ) : Bool :=
  match outcome zeroSolver optionFiles (t.1.set t.2.1 t.2.2.1), outcome zeroSolver optionFiles (t.1.set t.2.1 t.2.2.2) with
  | .ok r, .ok r' => decide (r ≠ r')
  | _, _ => false

/-- **C64** Each of the options that can have an effect has one: there are files, a configuration and two values of the option
such that the models built from the configuration with one and with the other value run and end with different results. -/
theorem C64_each_matters {k : String}
    (hk : k ∈ ["nystart", "nyend", "emstart", "idtm", "carbon_cycle_model", "thermal_model", "sunvolc", "conc_run"] ∨
      ∃ w ∈ inputs, k = w ++ "_file" ∨ k = w ++ "_data") :
    ∃ (solve : UDM.Solver ℚ) (fs : Files ℚ) (c : Dict (CfgVal ℚ)) (v v' : CfgVal ℚ) (r r' : Dict (List ℚ)), WF c ∧
      outcome solve fs (c.set k v) = .ok r ∧ outcome solve fs (c.set k v') = .ok r' ∧ r ≠ r' := by
  have hmem : k ∈ optionTrials.map (fun t => t.2.1) := by
    rcases hk with hk | ⟨w, hw, hk⟩
    · simp only [List.mem_cons, List.not_mem_nil, or_false] at hk
      rcases hk with rfl | rfl | rfl | rfl | rfl | rfl | rfl | rfl <;> decide
    · simp only [inputs, List.mem_cons, List.not_mem_nil, or_false] at hw
      rcases hw with rfl | rfl | rfl | rfl | rfl | rfl | rfl | rfl | rfl | rfl | rfl | rfl <;>
        rcases hk with rfl | rfl <;> decide
  obtain ⟨t, ht, rfl⟩ := List.mem_map.1 hmem
  have hwf : ∀ t ∈ optionTrials, WF t.1 := by unfold WF; decide +kernel
  have hall : optionTrials.all trialDiffers = true := by decide +kernel
  have h := List.all_eq_true.1 hall t ht
  unfold trialDiffers at h
  split at h
  · rename_i r r' e e'
    exact ⟨zeroSolver, optionFiles, t.1, t.2.2.1, t.2.2.2, r, r', hwf t ht, e, e', of_decide_eq_true h⟩
  · cases h

end Verif.Props
