import Verif.Exec.RichRun
import Verif.Spec.Emissions

/-!
# The small inputs with other emissions from 2000 on; used by examples
-/

namespace Verif.Exec
open Verif.Py Verif.Model Verif.Model.Handler Verif.Model.Driver Verif.Spec

/-- `f c` is added to the emissions of `c` in every year. -/
noncomputable def emisInputs (f : String → ℝ) : Inputs ℝ :=
  { richInputs false with
    emis := ⟨(richInputs false).emis.cols, (richInputs false).emis.idx, fun c y => (richInputs false).emis.cell c y + f c⟩
    pertForc := none }

theorem emis_tables (f : String → ℝ) : CompleteTables (emisInputs f) 1998 2000 2003 2010 :=
  have t := rich_tables false
  { order := t.order, emStart := t.emStart, start := t.start, concRows := t.concRows, concCols := t.concCols,
    emisRows := t.emisRows, emisCo2 := t.emisCo2, emisGas := t.emisGas, aerosolAlpha := t.aerosolAlpha,
    aerosolRef := t.aerosolRef, ozone := t.ozone, methane := t.methane, natural := t.natural, pertEm := t.pertEm,
    pertForc := fun rows h => by cases h }

theorem emis_only {f f' : String → ℝ} {K : List String} (h : ∀ c ∉ K, f' c = f c) :
    OnlyEmissionsOf K (emisInputs f) (emisInputs f') := by
  refine ⟨rfl, rfl, rfl, rfl, rfl, rfl, rfl, rfl, rfl, ?_⟩
  intro c hc y
  simp [emisInputs, h c hc]

/-- The parameters of the last run: the Wigley lifetime of methane. -/
noncomputable def wigleyRun : RunPams ℝ := ⟨none, some [("lifetime_mode", .str "WIGLEY")], none⟩

end Verif.Exec
