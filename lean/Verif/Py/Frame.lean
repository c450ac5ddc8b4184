import Verif.Py.Table

/-!
# Rectangular data frames with an ordered index of year labels

Used for the input tables (`pandas.DataFrame` with years as index): every column has a cell in every
row. Simplification: labels are looked up by value, so a frame with repeated labels is read as if
the repeated rows were equal.
-/

namespace Verif.Py

structure Frame (F : Type) where
  cols : List String
  idx : List Int
  cell : String → Int → F

namespace Frame
variable {F : Type}

/-- `df[c][y]`: `KeyError` for an unknown column or label. -/
def at' (t : Frame F) (c : String) (y : Int) : Except PyErr F :=
  if c ∈ t.cols ∧ y ∈ t.idx then .ok (t.cell c y) else .error .keyError

/-- The same frame as a table of optional cells. -/
def toTable (t : Frame F) : Table F :=
  { cols := t.cols, val := fun c y => if y ∈ t.idx then some (t.cell c y) else none }

/-- The frame after its cells were changed in place; cells the table does not have keep their value
(the table operations used never remove cells). -/
def withTable (t : Frame F) (u : Table F) : Frame F :=
  { t with cell := fun c y => (u.val c y).getD (t.cell c y) }

end Frame

/-- A slice bound: negative bounds count from the end, everything is clipped to the length. -/
def sliceBound (n : Nat) (a : Int) : Nat :=
  if a < 0 then (a + n).toNat else min a.toNat n

/-- `l[a:b]` with Python's treatment of negative and out of range bounds. -/
def pySlice {α : Type} (l : List α) (a b : Int) : List α :=
  (l.take (sliceBound l.length b)).drop (sliceBound l.length a)

/-- `range(a, b)` / `np.arange(a, b)` for integers. -/
def pyRange (a b : Int) : List Int := (List.range (b - a).toNat).map (fun (k : Nat) => a + (k : Int))

end Verif.Py
