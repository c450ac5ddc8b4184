import Verif.Py.RealInst
import Verif.Model.Driver

/-!
# A complete small run over the real numbers

Whether a run succeeds depends on the shape of its inputs, so the kernel can check that this run over
the reals succeeds (real arithmetic is never evaluated). Used by the examples beside theorems about
runs over the reals: years 2000-2003, emissions from 2002.
-/

namespace Verif.Exec
open Verif.Py Verif.Model Verif.Model.Handler Verif.Model.Driver

/-- A carbon cycle that adds up emissions. -/
noncomputable def plainCarbon : CarbonOps ℝ ℝ :=
  { create := fun _ _ => .ok 0
    step := fun k _ em _ => .ok (278 + (k + em), k + em)
    reset := fun _ _ => .ok 0 }

/-- A thermal model whose temperature is the mean forcing. -/
noncomputable def plainThermal : ThermalOps ℝ Unit :=
  { create := fun _ => .ok ()
    setFeedback := fun _ _ => ()
    budget := fun _ fn fs _ _ => .ok ([("dtemp", (fn + fs) / 2)], ())
    outputs := [("dT_glob", "dtemp")] }

noncomputable def plainGas : Dict (Gas ℝ) :=
  [("CO2", ⟨"ppm", 1, 2, 1, 0, 0, 0, 1⟩), ("CH4", ⟨"ppb", 1, 2, 10, 120, 160, 0, 1⟩),
   ("N2O", ⟨"ppb", 1, 4, 120, 0, 0, 0, 1⟩), ("CFC-11", ⟨"ppt", 1/4, 20, 45, 0, 0, 0, 1⟩),
   ("STRAT_O3", ⟨"-", 0, 0, 0, 0, 0, 0, 1⟩), ("LANDUSE", ⟨"-", 0, 0, 0, 0, 0, 0, 1⟩)]

noncomputable def plainConc : Frame ℝ :=
  ⟨["CO2", "CH4", "N2O", "CFC-11"], pyRange 2000 2006, fun _ y => 300 + (y - 2000 : ℤ)⟩

noncomputable def plainEmis : Frame ℝ :=
  ⟨["CO2_FF", "CO2_AFOLU", "CH4", "N2O", "CFC-11", "NOx", "CO", "NMVOC"], pyRange 2000 2006,
    fun _ y => (y - 1995 : ℤ)⟩

noncomputable def plainInputs (concRun : Bool) : Inputs ℝ :=
  { gas := plainGas
    natCh4 := ⟨["CH4"], pyRange 2000 2006, fun _ _ => 200⟩
    natN2o := ⟨["N2O"], pyRange 2000 2006, fun _ _ => 10⟩
    concIn := plainConc
    emis := plainEmis
    concRun := concRun
    pertEm := none
    pertForc := none }

noncomputable def plainPam : Option (Dict (PyVal ℝ)) :=
  some [("nystart", .int 2000), ("nyend", .int 2003), ("emstart", .int 2002)]

noncomputable def plainDriver {κ : Type} (h : Handler ℝ κ) : Driver ℝ κ :=
  { nystart := 2000, nyend := 2003, source := .handler h, feedbackList := some ["dtemp"],
    volcN := [[0], [-1], [0], [0]], volcS := [[0], [-1], [0], [0]],
    sun := [1, 1, 1, 1], luc := [2, 3, 3, 3], results := [] }

/-- The call returns. -/
def isOk {α : Type} : Except PyErr α → Bool
  | .ok _ => true
  | .error _ => false

theorem isOk_iff {α : Type} {x : Except PyErr α} : isOk x = true ↔ ∃ a, x = .ok a := by
  cases x <;> simp [isOk]

/-- Construction and a run, concentration- or emission-driven, succeed. -/
theorem plain_runs (b : Bool) : ∃ h d1, construct plainCarbon (plainInputs b) plainPam none = .ok h ∧
    run plainCarbon plainThermal (plainDriver h) ⟨none, none, none⟩ = .ok (d1, ()) := by
  have h0 : isOk (construct plainCarbon (plainInputs b) plainPam none >>= fun h =>
      run plainCarbon plainThermal (plainDriver h) ⟨none, none, none⟩) = true := by
    cases b <;> decide +kernel
  cases hc : construct plainCarbon (plainInputs b) plainPam none with
  | error e => rw [hc] at h0; cases h0
  | ok h =>
    rw [hc] at h0
    obtain ⟨⟨d1, u⟩, e⟩ := isOk_iff.1 h0
    exact ⟨h, d1, rfl, e⟩

end Verif.Exec
