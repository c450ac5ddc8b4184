import Verif.Exec.EmisRun
import Verif.Model.CarbonInst

/-!
# The small inputs with more CO2 emitted after the first year; used by examples
-/

namespace Verif.Exec
open Verif.Py Verif.Model Verif.Model.Handler Verif.Model.Driver Verif.Spec

/-- `s` is added to the fossil emissions of CO2 after 1998. -/
noncomputable def laterInputs (s : ℝ) : Inputs ℝ :=
  { emisInputs (fun _ => 0) with
    emis := ⟨(richInputs false).emis.cols, (richInputs false).emis.idx, fun c y => (richInputs false).emis.cell c y +
      if c = "CO2_FF" ∧ 1998 < y then s else 0⟩ }

theorem later_tables (s : ℝ) : CompleteTables (laterInputs s) 1998 2000 2003 2010 :=
  have t := emis_tables (fun _ => 0)
  { order := t.order, emStart := t.emStart, start := t.start, concRows := t.concRows, concCols := t.concCols,
    emisRows := t.emisRows, emisCo2 := t.emisCo2, emisGas := t.emisGas, aerosolAlpha := t.aerosolAlpha,
    aerosolRef := t.aerosolRef, ozone := t.ozone, methane := t.methane, natural := t.natural, pertEm := t.pertEm,
    pertForc := fun rows h => by cases h }

theorem later_only (s s' : ℝ) : OnlyEmissionsOf ["CO2_FF", "CO2_AFOLU"] (laterInputs s) (laterInputs s') := by
  refine ⟨rfl, rfl, rfl, rfl, rfl, rfl, rfl, rfl, rfl, ?_⟩
  intro c hc y
  have : c ≠ "CO2_FF" := fun e => hc (by simp [e])
  simp [laterInputs, this]

/-- The parameters of the box carbon cycle without temperature effects. -/
noncomputable def calmSet : Dict (PyVal ℝ) :=
  [("beta_f", .flt 0.287), ("land_temp_sensitivity", .flt 0), ("soil_respiration_rate", .flt 0.02),
   ("ocean_mixed_layer_depth", .flt 25), ("ocean_exchange_rate", .flt 0.01), ("vegetation_to_soil_fraction", .flt 0.1),
   ("ocean_solubility_base", .flt 0.02), ("ocean_solubility_temp_coeff", .flt 0)]

noncomputable def calmPams : Box.Pams ℝ :=
  { beta_f := 0.287, land_temp_sensitivity := 0, soil_respiration_rate := 0.02, ocean_mixed_layer_depth := 25,
    ocean_exchange_rate := 0.01, vegetation_to_soil_fraction := 0.1, ocean_solubility_base := 0.02,
    ocean_solubility_temp_coeff := 0 }

end Verif.Exec
