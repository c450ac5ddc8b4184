import Verif.Py.Dict

/-! # Specification of parameter sanitising (C01, C02), independent of the model -/

namespace Verif.Spec
open Verif.Py

variable {F : Type}

/-- What the value of parameter `k` must be after sanitising, given the user's value (if any), the
documented default (if `k` is a required parameter) and whether `k` is an allowed optional key. -/
def sanitisedValue (user default : Option (PyVal F)) (optional : Prop) [Decidable optional] :
    Option (PyVal F) :=
  match default with
  | some d =>
    match user with
    | some v => if v.isNum then some v else some d
    | none => some d
  | none => if optional then user else none

/-- What the value of parameter `k` must be after an update: the new value if `k` may change, is
already present and the new value is a number, otherwise the old value. -/
def updatedValue (old new : Option (PyVal F)) (mayChange : Prop) [Decidable mayChange] :
    Option (PyVal F) :=
  match old, new with
  | some o, some n => if mayChange ∧ n.isNum = true then some n else some o
  | o, _ => o

end Verif.Spec
