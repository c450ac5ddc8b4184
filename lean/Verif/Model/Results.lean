import Verif.Model.CarbonOut
import Verif.Model.Reader

/-!
# The results of a run as tables

The end of `_run` with `results_as_dict` (ciceroscm.py:305-319): the result tables of the handler are added to the
yearly series of the driver. A table is built over the run years. A cell that a column does not have would be NaN in
pandas; here building such a table fails with `other`, and `C77_tables` shows that it does not happen.
-/

namespace Verif.Model.Results
open Verif.Py Verif.Model Verif.Model.Handler Verif.Model.Driver Verif.Model.CarbonOut

section
variable {F κ τ : Type} [Add F] [Sub F] [Mul F] [Div F] [Neg F] [OfScientific F] [LT F] [DecidableLT F]
  [MathFn F]

/-- A cell of a table: concentrations_emissions_handler.py:985. -/
def cellOver (c : String × (Int → Option F)) (y : Int) : Except PyErr F :=
  match c.2 y with
  | some v => .ok v
  | none => .error .other

/-- A column over the run years: concentrations_emissions_handler.py:985 and 1009 `pd.DataFrame(data=..., index=self.years)`. -/
def columnOver (years : List Int) (c : String × (Int → Option F)) : Except PyErr (String × List F) := do
  let vs ← years.mapM (cellOver c)
  return (c.1, vs)

/-- A table over the run years, with the years in the column `Year`: concentrations_emissions_handler.py:985-987,
1001-1002, 1007-1010. -/
def frameOver (years : List Int) (cols : List (String × (Int → Option F))) : Except PyErr (Reader.Df F) := do
  return ⟨years, ← cols.mapM (columnOver years)⟩

/-- The carbon cycle table over the run years; a column that is all NaN is left out (reading it would give NaN, here
`KeyError`): concentrations_emissions_handler.py:1025-1027. -/
def carbonFrame (years : List Int) (cols : List (Column F)) : Reader.Df F :=
  ⟨years, cols.filterMap (fun c => c.2.map (fun vs => (c.1, vs)))⟩

/-- ciceroscm.py:305-319 with concentrations_emissions_handler.py:966-1028: the results of a finished run when they are
asked for as a dictionary; `asked` says whether the run's configuration has the key `carbon_cycle_outputs`. In a run driven
by forcings there are only the yearly series. -/
def runResults (oops : OutputOps F κ) (tops : ThermalOps F τ) (d : Driver F κ) (asked : Bool) :
    Except PyErr (Reader.Results F × Driver F κ) :=
  match d.source with
  | .forcing _ => .ok (⟨[], d.results⟩, d)
  | .handler h => do
    let c ← carbonTable oops tops d asked
    let y0 ← h.y0
    let forc ← frameOver h.years (reportForcing h y0)
    let emis ← reportEmis h
    let emis ← frameOver h.years emis
    let conc ← frameOver h.years (reportConc h)
    let tables : Dict (Reader.Df F) := [("emissions", emis), ("concentrations", conc), ("forcing", forc)]
    match c.1 with
    | some t => return (⟨tables ++ [("carbon cycle", carbonFrame h.years t)], d.results⟩, c.2)
    | none => return (⟨tables, d.results⟩, c.2)

end
end Verif.Model.Results
