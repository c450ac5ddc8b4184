import Verif.Py.Dict

/-!
# Flat carbon parameters: `carbon_cycle/rfuns.py` lines 8-125
-/

namespace Verif.Model.Flat
open Verif.Py

/-- A value of a carbon parameter set: an ordinary value, or the dictionary
`{"coeffs": [...], "timescales": [...]}` describing a response function. -/
inductive PVal (V : Type) where
  | val (v : V)
  | fn (coeffs timescales : List (PVal V))

section
variable {V : Type} (isNone : PVal V → Bool)

/-- rfuns.py:28-29 `key.startswith(prefix) and key[len(prefix):].isdigit()` and then
`int(key[len(prefix):])`. Simplification: only ASCII digits count (Python's `isdigit` also accepts
some other Unicode digits, for part of which `int` raises). -/
def idxOf (pre key : String) : Option Nat :=
  let rest := key.toList.drop pre.toList.length
  if pre.toList.isPrefixOf key.toList && !rest.isEmpty && rest.all Char.isDigit then
    some (Nat.ofDigitChars 10 rest 0)
  else none

/-- rfuns.py:31-33: extend the list with `None` up to index `i`, then assign. `None` placeholders are
`none`; a value that is itself Python's `None` is the same as a placeholder. -/
def place (values : List (Option (PVal V))) (i : Nat) (v : PVal V) : List (Option (PVal V)) :=
  let padded := values ++ List.replicate (i + 1 - values.length) none
  padded.set i (if isNone v then none else some v)

/-- rfuns.py:27-34 the body of the loop over the keys. -/
def extractStep (pre : String) (acc : List (Option (PVal V)) × List String) (kv : String × PVal V) :
    List (Option (PVal V)) × List String :=
  match idxOf pre kv.1 with
  | some i => (place isNone acc.1 i kv.2, acc.2 ++ [kv.1])
  | none => acc

/-- rfuns.py:8-38 `_extract_indexed_parameters`. -/
def extract (pamset : Dict (PVal V)) (pre : String) : List (PVal V) × List String :=
  let r := pamset.foldl (extractStep isNone pre) ([], [])
  (r.1.filterMap id, r.2)

/-- rfuns.py:41-58 `_process_rb_parameters`. -/
def processRb (pamset : Dict (PVal V)) : Except PyErr (Dict (PVal V) × List String) :=
  let c := extract isNone pamset "rb_coef"
  let t := extract isNone pamset "rb_tim"
  if c.1.isEmpty && t.1.isEmpty then .ok (pamset, [])
  else if c.1.length ≠ t.1.length then .error .valueError
  else .ok ((if c.1.isEmpty then pamset else Dict.set pamset "rb_function" (.fn c.1 t.1)), c.2 ++ t.2)

/-- rfuns.py:61-79 `_process_rs_parameters`. -/
def processRs (pamset : Dict (PVal V)) : Except PyErr (Dict (PVal V) × List String) :=
  let c := extract isNone pamset "rs_coef"
  let t := extract isNone pamset "rs_tim"
  if c.1.isEmpty && t.1.isEmpty then .ok (pamset, [])
  else if c.1.length ≠ t.1.length + 1 then .error .valueError
  else .ok ((if c.1.isEmpty then pamset else Dict.set pamset "rs_function" (.fn c.1 t.1)), c.2 ++ t.2)

/-- rfuns.py:122-123 `pamset.pop(key)` for each key (raises `KeyError` for an absent key). -/
def popAll (pamset : Dict (PVal V)) : List String → Except PyErr (Dict (PVal V))
  | [] => .ok pamset
  | k :: ks => if Dict.has pamset k then popAll (Dict.erase pamset k) ks else .error .keyError

/-- rfuns.py:104-107 the early-return test. -/
def hasFlat (pamset : Dict (PVal V)) : Bool :=
  pamset.any (fun kv => ["rb_coef", "rb_tim", "rs_coef", "rs_tim"].any
    (fun pre => pre.toList.isPrefixOf kv.1.toList))

/-- rfuns.py:82-125 `_process_flat_carbon_parameters`; all changes are made on a copy, so the
caller's dictionary is the unchanged argument. -/
def processFlat (pamset : Dict (PVal V)) : Except PyErr (Dict (PVal V)) :=
  if hasFlat pamset then do
    let (p1, k1) ← processRb isNone pamset
    let (p2, k2) ← processRs isNone p1
    popAll p2 (k1 ++ k2)
  else .ok pamset

end
end Verif.Model.Flat
