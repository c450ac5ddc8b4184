import Verif.Model.InputHandler

/-!
# What a user means by the inputs of a model run

An input `x` is configured by the key `x_file` (the name of a file) or `x_data` (the data themselves).
-/

namespace Verif.Spec.Inputs
open Verif.Py Verif.Model.InputHandler

/-- The inputs. -/
def inputs : List String :=
  ["forc", "gaspam", "nat_ch4", "nat_n2o", "concentrations", "emissions", "perturb_em", "perturb_forc", "rf_luc",
   "rf_sun", "rf_volc_n", "rf_volc_s"]

/-- Inputs without any default. -/
def noDefault : List String := ["forc", "gaspam", "concentrations", "emissions", "perturb_em", "perturb_forc"]

/-- Solar and volcanic inputs. -/
def solarVolcanic : List String := ["rf_sun", "rf_volc_n", "rf_volc_s"]

variable {F : Type}

/-- The file configured for an input. -/
def FileIs (c : Dict (CfgVal F)) (what p : String) : Prop := Dict.get? c (what ++ "_file") = some (.val (.str p))

/-- Data configured for an input. -/
def DataIs (c : Dict (CfgVal F)) (what : String) (d : Data F) : Prop :=
  Dict.get? c (what ++ "_data") = some (.data d)

/-- No file, no data. -/
def NoFile (c : Dict (CfgVal F)) (what : String) : Prop := Dict.get? c (what ++ "_file") = none
def NoData (c : Dict (CfgVal F)) (what : String) : Prop := Dict.get? c (what ++ "_data") = none

/-- `sunvolc` is given and equal to 1. -/
def SunVolc [MathFn F] (c : Dict (CfgVal F)) : Prop := ∃ v, Dict.get? c "sunvolc" = some (.val v) ∧ v.pyEq (.int 1) = true

/-- The rows of a table with `n` years, each with `m` zeros. -/
def zeroRows [OfScientific F] (n m : Nat) : List (List F) := List.replicate n (List.replicate m 0.0)

/-- A row-per-year file begins in 1750: the row of year `y`. -/
def rowOfYear (rs : List (List F)) (y : Int) : Option (List F) := if y < 1750 then none else rs[(y - 1750).toNat]?

/-- The years of a table follow one another without gaps. -/
def Contiguous (t : Frame F) (first last : Int) : Prop := t.idx = pyRange first (last + 1)

end Verif.Spec.Inputs
