import Verif.Exec.RichRun
import Verif.Spec.MoreMethane
import Verif.Spec.OneGas

/-!
# Inputs whose methane grows by `s` ppb more per year from 1998 to 2003; used by examples
-/

namespace Verif.Exec
open Verif.Py Verif.Model Verif.Model.Handler Verif.Model.Driver Verif.Spec

noncomputable def methaneInputs (s : ℝ) : Inputs ℝ :=
  { richInputs true with
    concIn := ⟨["CO2", "CH4", "N2O", "CFC-11"], pyRange 1995 2012, fun c y =>
      300 + ((y - 1995 : ℤ) : ℝ) + if c = "CH4" ∧ y ≤ 2003 then s * ((y - 1998 : ℤ) : ℝ) else 0⟩
    pertEm := none }

theorem methane_complete (s : ℝ) : CompleteTables (methaneInputs s) 1998 2000 2003 2010 :=
  have t := rich_tables true
  { order := t.order, emStart := t.emStart, start := t.start, concRows := t.concRows, concCols := t.concCols,
    emisRows := t.emisRows, emisCo2 := t.emisCo2, emisGas := t.emisGas, aerosolAlpha := t.aerosolAlpha,
    aerosolRef := t.aerosolRef, ozone := t.ozone, methane := t.methane, natural := t.natural,
    pertEm := fun rows h => by simp [methaneInputs] at h,
    pertForc := t.pertForc }

theorem methane_only (s s' : ℝ) : OnlyConcOf "CH4" (methaneInputs s) (methaneInputs s') := by
  refine ⟨rfl, rfl, rfl, rfl, rfl, rfl, rfl, rfl, rfl, rfl, ?_⟩
  intro c hc y
  simp [methaneInputs, hc]

theorem methane_rows (s : ℝ) : MethaneRows (methaneInputs s).gas 1 1 1 1 := by
  refine ⟨?_, ⟨_, rfl, rfl⟩, ⟨_, rfl, rfl⟩, ?_, ?_⟩
  · intro t ht
    simp only [List.mem_cons, List.not_mem_nil, or_false] at ht
    rcases ht with rfl | rfl | rfl <;> exact ⟨_, rfl, by decide⟩
  · intro x hx
    have : (⟨"-", 0, 0, 0, 0, 0, 0, 1⟩ : Gas ℝ) = x := Option.some.inj hx
    subst this
    exact ⟨rfl, rfl, rfl⟩
  · intro x hx
    have : (⟨"-", 0, 0, 0, 0, 0, 0, 1⟩ : Gas ℝ) = x := Option.some.inj hx
    subst this
    exact ⟨rfl, rfl, rfl⟩

/-- From 0 ppb to 3 ppb per year more. -/
theorem methane_more : MoreMethane (methaneInputs 0).concIn.cell (methaneInputs 3).concIn.cell 1998 2003 := by
  have c : ∀ s y, y ≤ 2003 → (methaneInputs s).concIn.cell "CH4" y = 300 + ((y - 1995 : ℤ) : ℝ) + s * ((y - 1998 : ℤ) : ℝ) :=
    fun s y h => by simp [methaneInputs, h]
  have cn : ∀ y, (methaneInputs 0).concIn.cell "N2O" y = 300 + ((y - 1995 : ℤ) : ℝ) := fun y => by simp [methaneInputs]
  have hb : ∀ y : ℤ, 1998 ≤ y → y ≤ 2003 → 0 ≤ ((y - 1998 : ℤ) : ℝ) ∧ ((y - 1998 : ℤ) : ℝ) ≤ 5 ∧
      0 ≤ ((y - 1995 : ℤ) : ℝ) ∧ ((y - 1995 : ℤ) : ℝ) ≤ 8 := by
    intro y h1 h2
    refine ⟨?_, ?_, ?_, ?_⟩ <;> (norm_cast; omega)
  refine ⟨by rw [c _ _ (by decide), c _ _ (by decide)]; norm_num, ?_, ?_, ?_, ?_⟩ <;> intro y h1 h2 <;>
    obtain ⟨b1, b2, b3, b4⟩ := hb y h1 h2
  · rw [c _ _ h2, c _ _ h2]; linarith
  · rw [c _ _ h2]; linarith
  · rw [c _ _ h2]; linarith
  · rw [cn]
    constructor <;> linarith

end Verif.Exec
