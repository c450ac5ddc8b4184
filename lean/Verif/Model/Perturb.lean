import Verif.Py.Table

/-!
# Model of `/repo/src/ciceroscm/perturbations.py`

The perturbation files are modelled as parsed row lists.
-/

namespace Verif.Model
open Verif.Py

section
variable {F : Type}
/-- A row of an emission or forcing perturbation table (columns `component`, `year` and
`emission`/`forcing`). -/
structure PertRow (F : Type) where
  component : String
  year : Int
  value : F

variable [Add F] [Sub F] [Mul F] [OfScientific F]

/-- Tracers with the aerosol hemispheric factor. perturbations.py:34-42. -/
def aerosolHemTracers : List String :=
  ["SO2", "SO4_IND", "BC", "OC", "BMB_AEROS", "BMB_AEROS_OC", "BMB_AEROS_BC"]

/-- `calculate_hemispheric_forcing(tracer, q, forc_nh, forc_sh)`. perturbations.py:9-57. -/
def hemisphericForcing (tracer : String) (q nh sh : F) : F × F :=
  if tracer ∈ aerosolHemTracers then
    (nh + q * 1.47, sh + q * (2.0 - 1.47))             -- lines 44-45
  else if tracer = "TROP_O3" then
    (nh + q * 1.45, sh + q * (2.0 - 1.45))             -- lines 48-49
  else if tracer = "LANDUSE" then
    (nh + q * 1.42, sh + q * (2.0 - 1.42))             -- lines 52-53
  else
    (nh + q, sh + q)                                   -- lines 55-56

/-- The column an emission perturbation row is added to. perturbations.py:83-85. -/
def pertTarget (t : Table F) (component : String) : String :=
  if component = "CO2" ∧ "CO2" ∉ t.cols then "CO2_FF" else component

/-- One row of the loop in `perturb_emissions`. perturbations.py:82-88. -/
def perturbEmissionsStep (t : Table F) (r : PertRow F) : Except PyErr (Table F) := do
  let tracer := pertTarget t r.component
  let old ← t.at' tracer r.year
  return t.setAt tracer r.year (old + r.value)

/-- `perturb_emissions(input_handler, emissions_df)` on the parsed perturbation rows. The table is
changed in place, so the caller's table is the returned one. perturbations.py:60-90. -/
def perturbEmissions (t : Table F) (rows : List (PertRow F)) : Except PyErr (Table F) :=
  rows.foldlM perturbEmissionsStep t

/-- Forcing state threaded through `add_forcing_pert`: total, hemispheric values and the forcing
arrays per compound (`forc[tracer][i]`). -/
structure ForcAcc (F : Type) where
  tot : F
  nh : F
  sh : F
  forc : String → Nat → F

/-- `forc[tracer][i] = v`. -/
def setForc (forc : String → Nat → F) (tracer : String) (i : Nat) (v : F) : String → Nat → F :=
  fun t j => if t = tracer ∧ j = i then v else forc t j

/-- One row of the loop in `add_forcing_pert`; `keys` are the keys of the forcing dictionary and
`idx = yr - year0`. perturbations.py:197-206. -/
def addForcingPertStep (keys : List String) (idx : Nat) (s : ForcAcc F) (r : PertRow F) :
    ForcAcc F :=
  if r.component ∉ keys then s                                     -- lines 200-201
  else
    let h := hemisphericForcing r.component r.value s.nh s.sh      -- lines 203-205
    { tot := s.tot + r.value                                       -- line 202
      nh := h.1
      sh := h.2
      forc := setForc s.forc r.component idx (s.forc r.component idx + r.value) } -- line 206

/-- `ForcingPerturbation.add_forcing_pert(totforc, forc_nh, forc_sh, forc, yr)`.
Simplification: the array index `yr - year0` is a natural number, i.e. the year is not before the
first year (always true in a run, ciceroscm.py:277). perturbations.py:168-207. -/
def addForcingPert (rows : List (PertRow F)) (keys : List String) (year0 yr : Int)
    (s : ForcAcc F) : ForcAcc F :=
  (rows.filter (fun r => r.year = yr)).foldl (addForcingPertStep keys (yr - year0).toNat) s

/-- One gas of the loop in `add_forcing_pert_for_vanilla`: all old values are read first (raising
`KeyError` for a missing year), then all new values are assigned in row order, so for a repeated
year the last row wins. perturbations.py:222-227. -/
def addForcingPertVanillaGas (rows : List (PertRow F)) (t : Table F) (gas : String) :
    Except PyErr (Table F) := do
  let here := rows.filter (fun r => r.component = gas)
  let new ← here.mapM (fun r => do
    let old ← t.at' gas r.year
    return (r.year, old + r.value))
  return new.foldl (fun t p => t.setAt gas p.1 p.2) t

/-- `add_forcing_pert_for_vanilla(precalc_erf)`. Simplification: the code loops over a Python `set`
of gases (any order); the model loops in column order, the gases are independent.
perturbations.py:209-228. -/
def addForcingPertVanilla (rows : List (PertRow F)) (t : Table F) : Except PyErr (Table F) :=
  (t.cols.filter (fun c => c ∈ rows.map PertRow.component)).foldlM
    (addForcingPertVanillaGas rows) t

end
end Verif.Model
