import Verif.Spec.Inputs

/-! # When a configuration can be used again -/

namespace Verif.Spec.Reuse
open Verif.Py Verif.Model.InputHandler Verif.Spec.Inputs

variable {F : Type}

/-- The settings the model looks for in the dictionary itself. -/
def settings : List String := ["nystart", "nyend", "emstart", "idtm", "carbon_cycle_model", "thermal_model"]

/-- The caller gives a file for the input. -/
def GivesFile (c : Dict (CfgVal F)) (what : String) : Prop := ∃ v, Dict.get? c (what ++ "_file") = some v

/-- The caller gives nothing for the input. -/
def NotGiven (c : Dict (CfgVal F)) (what : String) : Prop := NoFile c what ∧ NoData c what

/-- Emissions come from a file, or are not perturbed. -/
def EmissionsKept (c : Dict (CfgVal F)) : Prop := GivesFile c "emissions" ∨ NotGiven c "perturb_em"

/-- Gas parameters come from a file, or concentrations are prescribed, or natural emissions are those of the gas table. -/
def GasesKept (c : Dict (CfgVal F)) : Prop :=
  GivesFile c "gaspam" ∨ Dict.get? c "conc_run" = some (.val (.bool true)) ∨
    (NotGiven c "nat_ch4" ∧ NotGiven c "nat_n2o")

end Verif.Spec.Reuse
