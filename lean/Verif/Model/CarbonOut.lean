import Verif.Model.CarbonInst
import Verif.Model.BackCalc
import Verif.Model.Driver
import Verif.Model.PubUtils

/-!
# The carbon cycle table of a run

`get_carbon_cycle_output` of the two carbon cycles, `get_carbon_cycle_data` and the end of
`add_results_to_dict` (concentrations_emissions_handler.py:1030-1083), and the end of `_run`
(ciceroscm.py:305-319).

A table is a list of columns in the order pandas keeps them; a column that is all NaN is `none`. Its index
is the list of run years. Building a frame from arrays of another length raises `ValueError`. numpy
operations on arrays of different lengths are rejected the same way; an array of length one (which numpy would
broadcast) does not occur because all series have the length of the run.
-/

namespace Verif.Model.CarbonOut
open Verif.Py Verif.Model Verif.Model.Handler Verif.Model.Driver Verif.Model.CarbonInst

/-- A column: its name and its values, `none` when all are NaN. -/
abbrev Column (F : Type) := String × Option (List F)

section
variable {F : Type} [Add F] [Sub F] [Mul F] [Div F] [Neg F] [OfScientific F] [LT F] [DecidableLT F]
  [MathFn F]

/-- carbon_cycle_mod.py:823-825, 848-854: the temperature series of the diagnostics. A dictionary without
`dtemp` gives `None`, with which the feedback functions raise `TypeError`. -/
def irDtemp (n : Nat) : Option (Dict (List F)) → Except PyErr (List F)
  | none => .ok (List.replicate n 0.0)
  | some d => match Dict.get? d "dtemp" with
    | some a => .ok a
    | none => .error .typeError

/-- carbon_cycle_mod.py:795-865 `get_carbon_cycle_output`: the columns, and the model object after the call
(a concentration run goes through the whole history once more to find the emissions). -/
def irOutput (k : IR F) (years : List Int) (concRun : Bool) (conc : List F)
    (fbs : Option (Dict (List F))) : Except PyErr (List (Column F) × IR F) := do
  let p ← irPams k
  let dtemp ← irDtemp years.length fbs
  if k.idtm ≤ 0 then .error .zeroDivision
  else if dtemp.length ≠ years.length ∨ conc.length ≠ years.length ∨ p.years_tot ≠ years.length then
    .error .valueError
  else
    let T := fun i => dtemp.getD i 0.0
    let back := if concRun then BackCalc.backCalculate p k.hold conc T else ([], k.hold)
    let dfnpp := if concRun then Carbon.dfnppOfConc p (fun i => conc.getD i 0.0) T else k.hold.dfnpp
    let common : List (Column F) :=
      [("Biosphere carbon flux", some ((List.range years.length).map (Carbon.biosphereFlux p dfnpp))),
       ("Ocean carbon flux", some ((List.range years.length).map (Carbon.oceanFlux p back.2))),
       ("Mixed layer depth", some (dtemp.map (Carbon.mixedLayerTempFeedback p))),
       ("CO2 solubility", some (dtemp.map (Carbon.solubilityTempFeedback p))),
       ("Net Primary Production", some (dtemp.map (Carbon.fnppFromTemp p)))]
    if concRun then
      return (common ++
        [("Airborne fraction CO2", Carbon.airborneFraction back.1 conc p.preindustrial_co2_conc),
         ("Emissions", some back.1)], { k with hold := back.2 })
    else return (common, k)

/-- carbon_cycle_mod_box.py:201-224 `get_carbon_cycle_output`. -/
def boxOutput (k : BoxM F) (years : List Int) (_concRun : Bool) (conc : List F)
    (fbs : Option (Dict (List F))) : Except PyErr (List (Column F) × BoxM F) := do
  let p ← boxPams k
  let dtemp := ((fbs.bind (fun d => Dict.get? d "dtemp")).getD (List.replicate conc.length 0.0))
  if dtemp.length ≠ conc.length ∨ conc.length ≠ years.length then .error .valueError
  else return ([("Net primary production", some (Box.outputNpp p conc dtemp)),
      ("Ocean carbon flux", some (Box.outputOceanFlux p conc dtemp))], k)

/-- What the handler asks of a carbon cycle for the output table: `get_carbon_cycle_output` and
`get_preindustrial_co2_conc`. -/
structure OutputOps (F κ : Type) where
  output : κ → List Int → Bool → List F → Option (Dict (List F)) → Except PyErr (List (Column F) × κ)
  preindustrial : κ → Except PyErr F

/-- carbon_cycle_abstract.py:118-132 `get_preindustrial_co2_conc`; `PREINDUSTRIAL_CO2_CONC` is 278. -/
def preindustrialOf (pam : Dict (PyVal F)) : Except PyErr F :=
  if pam.has "preindustrial_co2_conc" then pamF pam "preindustrial_co2_conc" else .ok 278.0

/-- The default carbon cycle. -/
def irOut : OutputOps F (IR F) := ⟨irOutput, fun k => preindustrialOf k.pam⟩

/-- The box carbon cycle. -/
def boxOut : OutputOps F (BoxM F) := ⟨boxOutput, fun k => preindustrialOf k.pam⟩

/-- `d[k]` of a concentration dictionary over the run years: concentrations_emissions_handler.py:1048 (a dictionary
filled year by year keeps the order of the years). -/
def concSeries {κ : Type} (h : Handler F κ) (t : String) : Except PyErr (List F) :=
  if t ∈ h.concKeys then h.years.mapM (fun y => match h.conc t y with
    | some v => .ok v
    | none => .error .keyError)
  else .error .keyError

/-- concentrations_emissions_handler.py:1056-1059: fossil plus land use emissions over the run years. -/
def emSeries {κ : Type} (h : Handler F κ) : Except PyErr (List F) :=
  h.years.mapM (fun y => do
    let ff ← h.emis.at' "CO2_FF" y
    let lu ← h.emis.at' "CO2_AFOLU" y
    return ff + lu)

/-- concentrations_emissions_handler.py:1030-1083 `get_carbon_cycle_data`. (Neither carbon cycle returns `None` here
because a concentration series is always given.) Assigning a column replaces one of the same name, else appends. -/
def carbonCycleData {κ : Type} (oops : OutputOps F κ) (h : Handler F κ) (fbs : Option (Dict (List F))) :
    Except PyErr (List (Column F) × Handler F κ) := do
  let conc ← concSeries h "CO2"
  let concRun ← pamB h.pam "conc_run"
  if concRun then
    let r ← oops.output h.carbon h.years true conc fbs
    return (r.1, { h with carbon := r.2 })
  else
    let em ← emSeries h
    let r ← oops.output h.carbon h.years false conc fbs
    let pre ← oops.preindustrial r.2
    return (Dict.set r.1 "Airborne fraction CO2" (Carbon.airborneFraction em conc pre), { h with carbon := r.2 })

/-- ciceroscm.py:311-318: the feedback series, `{key: results[get_first_key(outputs, key)] for key in feedback_list}`. -/
def feedbackSeries {τ : Type} (tops : ThermalOps F τ) (feedbackList : Option (List String))
    (results : Dict (List F)) : Except PyErr (Dict (List F)) :=
  match feedbackList with
  | none => .error .typeError
  | some ks => ks.mapM (fun k => do
      let o ← PubUtils.getFirstKey tops.outputs k
      let a ← results.getE o
      return (k, a))

/-- ciceroscm.py:307-319 with concentrations_emissions_handler.py:1022-1028: the `carbon cycle` table of the results,
made when the run's configuration has the key `carbon_cycle_outputs` (whatever its value); none in a forcing run. -/
def carbonTable {κ τ : Type} (oops : OutputOps F κ) (tops : ThermalOps F τ) (d : Driver F κ) (asked : Bool) :
    Except PyErr (Option (List (Column F)) × Driver F κ) :=
  match d.source with
  | .forcing _ => .ok (none, d)
  | .handler h => do
    let fbs ← feedbackSeries tops d.feedbackList d.results
    if asked then
      let r ← carbonCycleData oops h (some fbs)
      return (some r.1, { d with source := .handler r.2 })
    else return (none, d)

end
end Verif.Model.CarbonOut
