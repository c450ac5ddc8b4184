import Verif.Py.Basic

/-!
# Tables (pandas `DataFrame` with a column index and integer year labels)

A table has an ordered list of columns and, per column and year label, an optional value
(`none` when the label is missing).  Label access `df[c][y]` raises `KeyError` when the column or
the label is missing.
-/

namespace Verif.Py

structure Table (F : Type) where
  cols : List String
  val : String → Int → Option F

namespace Table
variable {F : Type}

/-- `df[c][y]`. -/
def at' (t : Table F) (c : String) (y : Int) : Except PyErr F :=
  if c ∈ t.cols then
    match t.val c y with
    | some v => .ok v
    | none => .error .keyError
  else .error .keyError

/-- `df.loc[y, c] = v` for an existing cell. -/
def setAt (t : Table F) (c : String) (y : Int) (v : F) : Table F :=
  { t with val := fun c' y' => if c' = c ∧ y' = y then some v else t.val c' y' }

/-- The cell exists. -/
def HasCell (t : Table F) (c : String) (y : Int) : Prop := c ∈ t.cols ∧ (t.val c y).isSome

end Table
end Verif.Py
