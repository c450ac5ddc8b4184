/-!
# Python values, exceptions and number operations

The model functions are polymorphic in the number type `F`.  They only use the *operations*
below (no laws), so a theorem proved for every `F` also holds for IEEE doubles, while algebraic
theorems are proved for `F := ℝ` (instances in `Verif/Py/RealInst.lean`).
-/

namespace Verif.Py

/-- The Python exceptions the modelled code can raise (class only, messages are not modelled). -/
inductive PyErr where
  | keyError
  | valueError
  | indexError
  | typeError
  | runtimeError
  | zeroDivision
  | fileNotFound
  | other
  deriving DecidableEq, Repr

/-- Elementary functions of `numpy`/`math` used by the code, for an arbitrary number type.
`floor x` is Python's `x // 1`. `isEq` is Python's `==` on numbers. -/
class MathFn (F : Type) where
  exp : F → F
  log : F → F
  sqrt : F → F
  abs : F → F
  sign : F → F
  pow : F → F → F
  floor : F → Int
  ofInt : Int → F
  isEq : F → F → Bool

export MathFn (ofInt isEq)

/-- IEEE doubles (used only to execute the model, never in a proof). -/
instance : MathFn Float where
  exp := Float.exp
  log := Float.log
  sqrt := Float.sqrt
  abs := Float.abs
  sign := fun x => if x < 0.0 then -1.0 else if 0.0 < x then 1.0 else 0.0
  pow := Float.pow
  floor := fun x => (Float.floor x).toInt64.toInt
  ofInt := Float.ofInt
  isEq := fun a b => a == b

/-- A Python value as far as the package looks at values: `isinstance(v, int)`,
`isinstance(v, float)`, string comparison, and opaque other objects.
`int` covers Python `int`; `bool` is separate because `isinstance(True, int)` is true but it is
not an `int` literal; `npint` is a `numpy` integer, which is *not* an instance of `int`;
`numpy.float64` is an instance of `float` and is covered by `flt`; `farr` is a list/array of
floats; `rfun` is the dictionary `{"coeffs": [...], "timescales": [...]}` describing a response
function; `obj` is any other object (identified by a number). -/
inductive PyVal (F : Type) where
  | int (i : Int)
  | flt (x : F)
  | bool (b : Bool)
  | str (s : String)
  | none
  | npint (i : Int)
  | farr (xs : List F)
  | rfun (coeffs timescales : List F)
  | obj (id : Nat)

namespace PyVal
variable {F : Type}

/-- `isinstance(v, int) or isinstance(v, float)`. -/
def isNum : PyVal F → Bool
  | .int _ => true
  | .flt _ => true
  | .bool _ => true
  | _ => false

/-- The number denoted by a numeric value. -/
def toF [MathFn F] : PyVal F → Option F
  | .int i => some (ofInt i)
  | .flt x => some x
  | .bool b => some (ofInt (if b then 1 else 0))
  | .npint i => some (ofInt i)
  | _ => Option.none

/-- The integer value, for parameters used as years or counts. -/
def toI : PyVal F → Option Int
  | .int i => some i
  | .bool b => some (if b then 1 else 0)
  | .npint i => some i
  | _ => Option.none

/-- Python `==` between values (numbers compare by value across int/float/bool). -/
def pyEq [MathFn F] : PyVal F → PyVal F → Bool
  | .str a, .str b => a == b
  | .none, .none => true
  | .farr a, .farr b => a.length == b.length && (List.zipWith isEq a b).all id
  | .rfun a s, .rfun b t => a.length == b.length && (List.zipWith isEq a b).all id &&
      s.length == t.length && (List.zipWith isEq s t).all id
  | .obj a, .obj b => a == b
  | a, b =>
    match a.toI, b.toI with
    | some i, some j => i == j
    | _, _ =>
      match a.toF, b.toF with
      | some x, some y => isEq x y
      | _, _ => false

end PyVal

/-- Sum of a list in Python order, `((0 + a₀) + a₁) + …`. -/
def fsum {F : Type} [Add F] [OfScientific F] (l : List F) : F := l.foldl (· + ·) 0.0

/-- Update of one array element (`a[i] = v`). -/
def upd {α : Type} (f : Nat → α) (i : Nat) (v : α) : Nat → α := fun j => if j = i then v else f j

end Verif.Py
