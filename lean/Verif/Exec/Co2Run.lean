import Verif.Exec.GasRun
import Verif.Spec.MoreCo2

/-!
# Inputs whose CO2 grows by `s` ppm per year from 300 ppm in 1998; used by examples
-/

namespace Verif.Exec
open Verif.Py Verif.Model Verif.Model.Handler Verif.Model.Driver Verif.Spec

noncomputable def co2Inputs (s : ℝ) : Inputs ℝ :=
  { sulfurInputs 1 with
    concIn := ⟨["CO2", "CH4", "N2O", "SF6", "CFC-11"], pyRange 1995 2012,
      fun c y => if c = "CO2" then 300 + s * ((y - 1998 : ℤ) : ℝ) else (sulfurInputs 1).concIn.cell c y⟩ }

theorem co2_tables (s : ℝ) : CompleteTables (co2Inputs s) 1998 2000 2003 2010 :=
  have t := sulfur_tables 1
  { order := t.order, emStart := t.emStart, start := t.start, concRows := t.concRows, concCols := t.concCols,
    emisRows := t.emisRows, emisCo2 := t.emisCo2, emisGas := t.emisGas, aerosolAlpha := t.aerosolAlpha,
    aerosolRef := t.aerosolRef, ozone := t.ozone, methane := t.methane, natural := t.natural, pertEm := t.pertEm,
    pertForc := t.pertForc }

theorem co2_only (s s' : ℝ) : OnlyConcOf "CO2" (co2Inputs s) (co2Inputs s') := by
  refine ⟨rfl, rfl, rfl, rfl, rfl, rfl, rfl, rfl, rfl, rfl, ?_⟩
  intro c hc y
  simp [co2Inputs, hc]

theorem co2_factors (s : ℝ) : Factors (co2Inputs s).gas 1 1 := ⟨⟨_, rfl, rfl⟩, ⟨_, rfl, rfl⟩⟩

theorem co2_cols (s : ℝ) : ∀ t ∈ ["CO2", "N2O", "CH4"], t ∈ (co2Inputs s).concIn.cols := by
  simp [co2Inputs]

/-- From 1 ppm per year to 3 ppm per year. -/
theorem co2_more : MoreCo2 (co2Inputs 1).concIn.cell (co2Inputs 3).concIn.cell 1998 2003 := by
  have c1 : ∀ y, (co2Inputs 1).concIn.cell "CO2" y = 300 + 1 * ((y - 1998 : ℤ) : ℝ) := fun y => by simp [co2Inputs]
  have c3 : ∀ y, (co2Inputs 3).concIn.cell "CO2" y = 300 + 3 * ((y - 1998 : ℤ) : ℝ) := fun y => by simp [co2Inputs]
  have cn : ∀ y, (co2Inputs 1).concIn.cell "N2O" y = 300 + ((y - 1995 : ℤ) : ℝ) := fun y => by simp [co2Inputs, sulfurInputs]
  have hb : ∀ y : ℤ, 1998 ≤ y → y ≤ 2003 → 0 ≤ ((y - 1998 : ℤ) : ℝ) ∧ ((y - 1998 : ℤ) : ℝ) ≤ 5 ∧
      0 ≤ ((y - 1995 : ℤ) : ℝ) ∧ ((y - 1995 : ℤ) : ℝ) ≤ 8 := by
    intro y h1 h2
    refine ⟨?_, ?_, ?_, ?_⟩ <;> (norm_cast; omega)
  refine ⟨by rw [c1, c3]; norm_num, ?_, ?_, ?_, ?_, ?_⟩ <;> intro y h1 h2 <;> obtain ⟨b1, b2, b3, b4⟩ := hb y h1 h2
  · rw [c1, c3]; linarith
  · rw [c1]; linarith
  · rw [c3]; linarith
  · rw [c1, c3, c1, sub_self, abs_le, abs_le]
    simp only [Int.cast_zero]
    refine ⟨⟨?_, ?_⟩, ?_, ?_⟩ <;> linarith
  · rw [cn]
    constructor <;> linarith

end Verif.Exec
