import Verif.Exec.RatRun
import Verif.Model.InputHandler

/-!
# A small set of files and configurations that the kernel can execute

Used by the examples beside the theorems on the input handler: a gas table, emission, concentration and
row-per-year files.
-/

namespace Verif.Exec
open Verif.Py Verif.Model Verif.Model.Handler Verif.Model.InputHandler

/-- The gas table as a file has it: with the rows the unit check leaves out, and with emission units. -/
def otherGas : Dict (Gas ℚ) :=
  [("OTHER", ⟨"-", 0, 0, 0, 0, 0, 0, 1⟩), ("SO4_IND", ⟨"-", 0, 0, 0, 0, 0, 0, 1⟩), ("BMB_AEROS", ⟨"-", 0, 0, 0, 0, 0, 0, 1⟩)]

def fileGas : Dict (Gas ℚ × String) :=
  (List.append toyGas otherGas).map (fun kv => (kv.1, (kv.2, "unit of " ++ kv.1)))

/-- Emissions as a file has them. -/
def fileEmis : Frame ℚ :=
  ⟨["CO2", "CO2.1", "CH4", "N2O", "CFC-11", "SO2", "BC", "NOx", "CO", "NMVOC"], pyRange 1995 2021, risingEmis⟩

def fileConc : Frame ℚ := ⟨["CO2", "CH4", "N2O", "CFC-11"], pyRange 1995 2021, risingConc⟩

/-- Row-per-year files: the value of a year is the year itself (divided by 100), with several columns for
volcanoes. -/
def fileRows (cols n : ℕ) : List (List ℚ) :=
  (List.range n).map (fun i => List.replicate cols ((1750 + i : ℕ) / 100 : ℚ))

def emisHeader : Dict String :=
  [("CO2", "unit of CO2"), ("CO2.1", "Pg C"), ("CH4", "unit of CH4"), ("N2O", "unit of N2O"), ("CFC-11", "unit of CFC-11"),
   ("SO2", "unit of SO2"), ("BC", "unit of BC")]

def concHeader : Dict String := [("CO2", "ppm"), ("CH4", "ppb"), ("N2O", "ppb"), ("CFC-11", "ppt")]

/-- The files. -/
def toyFiles : Files ℚ :=
  { present := fun p => decide (p ∈ ["gas.txt", "em.txt", "conc.txt", "nat.txt", "sun.txt", "short.txt", "forc.txt",
      "data/IPCC_LUCalbedo.txt", "data/solar_IPCC.txt", "data/meanVOLCmnd_ipcc_NH.txt"])
    gaspam := fun _ => .ok fileGas
    column := fun _ => .ok (List.replicate 751 200)
    table := fun p => .ok (if p = "em.txt" then fileEmis else fileConc)
    years := fun p => .ok (if p = "short.txt" then fileRows 1 252 else
      if p = "data/meanVOLCmnd_ipcc_NH.txt" then fileRows 12 271 else fileRows 1 271)
    forcFirst := fun _ => .ok true
    forcTable := fun _ => .ok ⟨["FORC_NH", "FORC_SH"], pyRange 1995 2021, fun c _ => if c = "FORC_NH" then 1 else 3⟩
    pert := fun _ => .ok []
    header := fun p => .ok (if p = "em.txt" then emisHeader else concHeader)
    defaultDir := "data"
    cwd := "work"
    nan := -999 }

def str (s : String) : CfgVal ℚ := .val (.str s)

/-- A configuration with the mandatory inputs, for the years 2000 to 2004. -/
def toyCfg (more : Dict (CfgVal ℚ)) : Dict (CfgVal ℚ) :=
  [("nystart", .val (.int 2000)), ("nyend", .val (.int 2004)), ("emstart", .val (.int 2002)), ("gaspam_file", str "gas.txt"),
   ("emissions_file", str "em.txt"), ("concentrations_file", str "conc.txt")] ++ more

/-- Did it work? -/
def okB {α : Type} (x : Except PyErr α) : Bool :=
  match x with
  | .ok _ => true
  | .error _ => false

theorem okB_iff {α : Type} (x : Except PyErr α) : okB x = true ↔ ∃ a, x = .ok a := by
  cases x <;> simp [okB]

end Verif.Exec
