import Verif.Exec.InputRun
import Verif.Model.CarbonInst

/-!
# Two small sets of inputs of each kind that the kernel can execute

Used by `C64_each_matters`: files `x1` and `x2` of each kind with different contents, a configuration with the years 2009 and
2010, and the results of a run of the model built from a configuration.
-/

namespace Verif.Exec
open Verif.Py Verif.Model Verif.Model.Handler Verif.Model.InputHandler Verif.Model.Driver Verif.Model.CarbonInst
  Verif.Model.ThermalInst

/-- The file names. -/
def optionNames : List String :=
  ["1", "2", "data/IPCC_LUCalbedo.txt", "data/solar_IPCC.txt", "data/meanVOLCmnd_ipcc_NH.txt"]

/-- 1 for the first file of a kind, 2 for the second. -/
def which (p : String) : ℚ := if p = "2" then 2 else 1

def optionGas (s : ℚ) : Dict (Gas ℚ × String) :=
  fileGas.map (fun kv => (kv.1, ({ kv.2.1 with sarf := s }, kv.2.2)))

def optionEmis (s : ℚ) (cols : List String) : Frame ℚ :=
  ⟨cols ++ ["CH4", "N2O", "CFC-11", "SO2", "BC", "NOx", "CO", "NMVOC", "BMB_AEROS_OC"], pyRange 1995 2016,
    fun _ y => s * (y - 1990 : ℤ)⟩

def optionConc (s : ℚ) : Frame ℚ :=
  ⟨["CO2", "CH4", "N2O", "CFC-11"], pyRange 2005 2016, fun _ y => 300 + s * ((y - 2005 : ℤ) : ℚ)⟩

def optionRows (s : ℚ) (cols n : ℕ) : List (List ℚ) := List.replicate n (List.replicate cols s)

def optionPert (s : ℚ) : List (PertRow ℚ) := [⟨"CH4", 2010, s⟩, ⟨"CH4", 2011, s⟩]

def optionForcing (s : ℚ) : Frame ℚ := ⟨["total", "FORC_NH", "FORC_SH"], pyRange 2009 2012, fun _ _ => s⟩

/-- The emission file is the one asked for with the header that has `CO2.1`; both kinds of table have the same file names, so the
table of a name has the columns of both. -/
def optionFiles : Files ℚ :=
  { present := fun p => decide (p ∈ optionNames)
    gaspam := fun p => .ok (optionGas (which p))
    column := fun p => .ok (List.replicate 751 (200 * which p))
    table := fun p => .ok { optionEmis (which p) ["CO2", "CO2.1"] with cell := fun c y => 300 + (optionEmis (which p) []).cell c y }
    years := fun p => .ok (optionRows (which p) 1 271)
    forcFirst := fun _ => .ok true
    forcTable := fun p => .ok (optionForcing (which p))
    pert := fun p => .ok (optionPert (which p))
    header := fun _ => .ok [("CO2", "ppm"), ("CO2.1", "Pg C"), ("CH4", "ppb"), ("N2O", "ppb"), ("CFC-11", "ppt")]
    defaultDir := "data"
    cwd := "work"
    nan := -999 }

/-- Years, number of sub-steps and models. -/
def optionYears : Dict (CfgVal ℚ) :=
  [("nystart", .val (.int 2009)), ("nyend", .val (.int 2010)), ("emstart", .val (.int 2010)), ("idtm", .val (.int 1)),
   ("thermal_model", str "twolayer"), ("carbon_cycle_model", str "default")]

def optionTables : Dict (CfgVal ℚ) :=
  [("gaspam_data", .data (.gases (optionGas 1))), ("emissions_data", .data (.table (optionEmis 1 ["CO2_FF", "CO2_AFOLU"]))),
   ("concentrations_data", .data (.table (optionConc 1)))]

/-- The results of a run of the model built from a configuration, with the models it asks for. -/
def outcome (solve : UDM.Solver ℚ) (fs : Files ℚ) (c : Dict (CfgVal ℚ)) : Except PyErr (Dict (List ℚ)) := do
  match ← Factory.chooseComponents (plain c) with
  | (.twoLayer, .impulseResponse) => do
    let d ← build irOps twoLayerOps fs c
    let r ← run irOps twoLayerOps d ⟨none, none, none⟩
    return r.1.results
  | (.twoLayer, .box) => do
    let d ← build boxOps twoLayerOps fs c
    let r ← run boxOps twoLayerOps d ⟨none, none, none⟩
    return r.1.results
  | (.upwellingDiffusion, .impulseResponse) => do
    let d ← build irOps (udmOps solve) fs c
    let r ← run irOps (udmOps solve) d ⟨none, none, none⟩
    return r.1.results
  | (.upwellingDiffusion, .box) => do
    let d ← build boxOps (udmOps solve) fs c
    let r ← run boxOps (udmOps solve) d ⟨none, none, none⟩
    return r.1.results

end Verif.Exec
