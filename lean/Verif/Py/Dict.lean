import Verif.Py.Basic

/-!
# Ordered dictionaries (Python `dict`)

A dictionary is a list of key/value pairs in insertion order.  A Python `dict` has distinct keys
(`Dict.WF`); assignment to an existing key keeps its position, assignment to a new key appends.
-/

namespace Verif.Py

abbrev Dict (V : Type) := List (String × V)

namespace Dict
variable {V : Type}

/-- `d[k]` / `d.get(k)`. -/
def get? : Dict V → String → Option V
  | [], _ => none
  | (k', v) :: d, k => if k' = k then some v else get? d k

/-- `k in d`. -/
def has (d : Dict V) (k : String) : Bool := (get? d k).isSome

/-- `d[k] = v`. -/
def set : Dict V → String → V → Dict V
  | [], k, v => [(k, v)]
  | (k', v') :: d, k, v => if k' = k then (k', v) :: d else (k', v') :: set d k v

/-- `del d[k]` / `d.pop(k, None)`. -/
def erase (d : Dict V) (k : String) : Dict V := d.filter (fun p => p.1 ≠ k)

/-- `d.keys()`. -/
def keys (d : Dict V) : List String := d.map Prod.fst

/-- `d.update(e)`. -/
def update (d e : Dict V) : Dict V := e.foldl (fun acc p => acc.set p.1 p.2) d

/-- `d[k]` raising `KeyError`. -/
def getE (d : Dict V) (k : String) : Except PyErr V :=
  match get? d k with
  | some v => .ok v
  | none => .error .keyError

/-- Distinct keys: the representation invariant of a Python `dict`. -/
def WF (d : Dict V) : Prop := (keys d).Nodup

instance (d : Dict V) : Decidable d.WF := inferInstanceAs (Decidable (keys d).Nodup)

end Dict
end Verif.Py
