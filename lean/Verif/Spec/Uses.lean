import Verif.Model.InputHandler

/-!
# What each input is used for

The names of the inputs and the part of the calculation they are meant for, in words a user would use.
-/

namespace Verif.Spec.Uses
open Verif.Py Verif.Model Verif.Model.Handler Verif.Model.Driver Verif.Model.InputHandler

variable {F : Type}

/-- Inputs of a run that computes forcing from emissions or concentrations. -/
def gasInputs : List String :=
  ["gaspam", "nat_ch4", "nat_n2o", "concentrations", "emissions", "perturb_em", "perturb_forc"]

/-- The data `x` given under the name `what` are what the run has in the place of that name. -/
structure UsedFor (inp : Inputs F) (what : String) (x : Data F) : Prop where
  gases : what = "gaspam" → ∃ t, x = .gases t ∧ inp.gas = t.map (fun kv => (kv.1, kv.2.1))
  natural_methane : what = "nat_ch4" → x = .table inp.natCh4
  natural_nitrous_oxide : what = "nat_n2o" → x = .table inp.natN2o
  concentrations : what = "concentrations" → x = .table inp.concIn
  emissions : what = "emissions" → x = .table inp.emis
  emission_perturbations : what = "perturb_em" → ∃ rs, x = .pert rs ∧ inp.pertEm = some rs
  forcing_perturbations : what = "perturb_forc" → ∃ rs, x = .pert rs ∧ inp.pertForc = some rs

/-- The first entry of every row. -/
def FirstEntries (rs : List (List F)) (xs : List F) : Prop := rs.map List.head? = xs.map some

/-- The same for the inputs every run has; volcanic forcing is used row by row, of the other two the first column. -/
structure UsedByAll {κ : Type} (d : Driver F κ) (what : String) (x : Data F) : Prop where
  volcanoes_north : what = "rf_volc_n" → x = .rows d.volcN
  volcanoes_south : what = "rf_volc_s" → x = .rows d.volcS
  sun : what = "rf_sun" → ∃ rs, x = .rows rs ∧ FirstEntries rs d.sun
  land_use : what = "rf_luc" → ∃ rs, x = .rows rs ∧ FirstEntries rs d.luc

/-- The natural emissions of a run: of methane and of nitrous oxide. -/
def natural (inp : Inputs F) (gas : String) : Frame F := if gas = "CH4" then inp.natCh4 else inp.natN2o

/-- A natural emission file has a number for each year from 1750: the table `t` of `gas` holds them. -/
def NumberPerYear (xs : List F) (gas : String) (t : Frame F) : Prop :=
  ∀ (n : Nat) (x : F), xs[n]? = some x → t.at' gas (1750 + n) = .ok x

/-- The place a natural emission file is looked for in when the configured one does not exist: below the current
directory. -/
def naturalElsewhere (fs : Files F) (gas : String) : String :=
  fs.cwd ++ "/input_OTHER/NATEMIS/natemis_" ++ (if gas = "CH4" then "ch4" else "n2o") ++ ".txt"

end Verif.Spec.Uses
