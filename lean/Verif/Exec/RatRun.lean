import Verif.Py.RatInst
import Verif.Model.ThermalInst

/-!
# A complete small run that the kernel can execute

Used by the examples beside the theorems on whole runs: 2000-2004, emissions from 2002, with main gases,
a halocarbon, aerosols, ozone, land use and stratospheric water vapour.
-/

namespace Verif.Exec
open Verif.Py Verif.Model Verif.Model.Handler Verif.Model.Driver Verif.Model.ThermalInst

/-- A carbon cycle that adds up emissions. -/
def toyCarbon : CarbonOps ℚ ℚ :=
  { create := fun _ _ => .ok 0
    step := fun k _ em _ => .ok (278 + (k + em), k + em)
    reset := fun _ _ => .ok 0 }

def toyGas : Dict (Gas ℚ) :=
  [("CO2", ⟨"ppm", 1, 2, 1, 0, 0, 0, 1⟩), ("CH4", ⟨"ppb", 1, 2, 10, 120, 160, 0, 1⟩),
   ("N2O", ⟨"ppb", 1, 4, 120, 0, 0, 0, 1⟩), ("CFC-11", ⟨"ppt", 1/4, 20, 45, 0, 0, 0, 1⟩),
   ("SO2", ⟨"-", 0, 0, 0, 0, 0, 0, 1⟩), ("BC", ⟨"-", 0, 0, 0, 0, 0, 0, 1⟩),
   ("TROP_O3", ⟨"-", 0, 0, 0, 0, 0, 0, 1⟩), ("STRAT_O3", ⟨"-", 0, 0, 0, 0, 0, 0, 1⟩),
   ("STRAT_H2O", ⟨"-", 0, 0, 0, 0, 0, 0, 1⟩), ("LANDUSE", ⟨"-", 0, 0, 0, 0, 0, 0, 1⟩)]

def toyEmis (f : String → ℤ → ℚ) : Frame ℚ :=
  ⟨["CO2_FF", "CO2_AFOLU", "CH4", "N2O", "CFC-11", "SO2", "BC", "NOx", "CO", "NMVOC"], pyRange 2000 2012, f⟩

def toyConc (f : String → ℤ → ℚ) : Frame ℚ := ⟨["CO2", "CH4", "N2O", "CFC-11"], pyRange 2000 2012, f⟩

def toyInputs (concRun : Bool) (emis conc : String → ℤ → ℚ) (pe pf : Option (List (PertRow ℚ))) : Inputs ℚ :=
  { gas := toyGas
    natCh4 := ⟨["CH4"], pyRange 2000 2012, fun _ _ => 200⟩
    natN2o := ⟨["N2O"], pyRange 2000 2012, fun _ _ => 10⟩
    concIn := toyConc conc
    emis := toyEmis emis
    concRun := concRun
    pertEm := pe
    pertForc := pf }

/-- Emissions that rise by one per year. -/
def risingEmis (_ : String) (y : ℤ) : ℚ := (y - 1995 : ℤ)

/-- Concentrations that rise by two per year. -/
def risingConc (_ : String) (y : ℤ) : ℚ := 300 + 2 * ((y - 2000 : ℤ) : ℚ)

def toyPam : Option (Dict (PyVal ℚ)) :=
  some [("nystart", .int 2000), ("nyend", .int 2004), ("emstart", .int 2002)]

def toyDriver {κ : Type} (h : Handler ℚ κ) (luc sun : List ℚ) : Driver ℚ κ :=
  { nystart := 2000, nyend := 2004, source := .handler h, feedbackList := some ["dtemp"],
    volcN := [[0], [-1], [0], [0], [0]], volcS := [[0], [-1], [0], [0], [0]],
    sun := sun, luc := luc, results := [] }

/-- Construction and one run. -/
def toyRun (i : Inputs ℚ) (luc sun : List ℚ) (p : RunPams ℚ) :
    Except PyErr (Driver ℚ ℚ × (TwoLayer.Pams ℚ × TwoLayer.State ℚ)) := do
  let h ← construct toyCarbon i toyPam none
  run toyCarbon twoLayerOps (toyDriver h luc sun) p

end Verif.Exec
