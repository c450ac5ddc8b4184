import Verif.Py.Dict

/-!
# `pub_utils.py`: halogen counts, regional aerosol rows, small helpers

Strings are handled as lists of characters. `int(s)` is modelled for ASCII digit strings; every
other string raises `ValueError` (Python also accepts signs, spaces and underscores).
-/

namespace Verif.Model.PubUtils
open Verif.Py

/-- `get_first_key(dct, value)`, pub_utils.py:22-43. -/
def getFirstKey {V : Type} [BEq V] (dct : Dict V) (value : V) : Except PyErr String :=
  match (dct.filter (fun p => p.2 == value)).map Prod.fst with
  | [] => .error .indexError
  | k :: _ => .ok k

/-- `int(s)`. -/
def pyInt (s : List Char) : Except PyErr Int :=
  if !s.isEmpty && s.all Char.isDigit then .ok (Nat.ofDigitChars 10 s 0) else .error .valueError

/-- `s.split(pat)[-1]` if `pat` occurs in `s` (for separators that do not overlap themselves): what
follows the last occurrence. -/
def afterLast (pat : List Char) : List Char → Option (List Char)
  | [] => none
  | c :: cs =>
    match afterLast pat cs with
    | some r => some r
    | none => if pat.isPrefixOf (c :: cs) then some ((c :: cs).drop pat.length) else none

/-- `s.split(pat)[-1]`. -/
def lastPart (pat s : List Char) : List Char := (afterLast pat s).getD s

/-- The digits of the compound number, pub_utils.py:120-124. -/
def compoundNumber (tracer : List Char) : Except PyErr Int :=
  let numpart := lastPart ['-'] tracer
  match numpart.getLast? with
  | none => .error .indexError
  | some c => if !c.isDigit then pyInt numpart.dropLast else pyInt numpart

/-- The chlorine number from the compound number, pub_utils.py:125-130. -/
def chlorineOfNumber (numpart : Int) : Int :=
  let double_bonds := numpart / 1000
  let bonds_total := numpart % 1000 / 100 * 2 + 4
  let hydrogen := numpart % 100 / 10 - 1
  let fluorine := numpart % 10
  bonds_total - 2 * double_bonds - hydrogen - fluorine

/-- `find_num_cl_in_hcfc(tracer)`, pub_utils.py:104-130. -/
def findNumClInHcfc (tracer : String) : Except PyErr Int := do
  return chlorineOfNumber (← compoundNumber tracer.toList)

/-- `int(tracer[i])`, pub_utils.py:158-160. -/
def digitAt (tracer : List Char) (i : Nat) : Except PyErr Int :=
  match tracer[i]? with
  | none => .error .indexError
  | some c => pyInt [c]

/-- The number written after the last occurrence of an element, 1 if none: pub_utils.py:162-165 and
167-170. -/
def writtenCount (rest : List Char) : Except PyErr Int :=
  match rest with
  | c :: _ => if c.isDigit then pyInt [c] else .ok 1
  | [] => .ok 1

/-- The entries one tracer makes in the chlorine and in the bromine dictionary,
pub_utils.py:155-170. -/
def halogens (tracer : String) : Except PyErr (Option Int × Option Int) :=
  let t := tracer.toList
  if (afterLast "CFC-".toList t).isSome then do                     -- lines 155-156
    let cl ← findNumClInHcfc tracer
    return (some cl, none)
  else if "H-".toList.isPrefixOf t then do                          -- lines 157-160
    let br ← digitAt t 5
    let cl ← digitAt t 4
    return (if 0 < cl then some cl else none, some br)
  else
    match afterLast "Cl".toList t with
    | some rest => do                                               -- lines 161-165
      let cl ← writtenCount rest
      return (some cl, none)
    | none =>
      match afterLast "Br".toList t with
      | some rest => do                                             -- lines 166-170
        let br ← writtenCount rest
        return (none, some br)
      | none => return (none, none)

/-- `d[k] = v` if there is a value. -/
def setOpt {V : Type} (d : Dict V) (k : String) : Option V → Dict V
  | some v => d.set k v
  | none => d

/-- `make_cl_and_br_dictionaries(gases_index)`, pub_utils.py:133-172; the dictionaries filled so far
are the first two arguments. -/
def clBrLoop (chlor brom : Dict Int) : List String → Except PyErr (Dict Int × Dict Int)
  | [] => .ok (chlor, brom)
  | tracer :: rest => do
    let h ← halogens tracer
    clBrLoop (setOpt chlor tracer h.1) (setOpt brom tracer h.2) rest

/-- pub_utils.py:133-172. -/
def makeClAndBr (gases_index : List String) : Except PyErr (Dict Int × Dict Int) :=
  clBrLoop [] [] gases_index

/-! ## Regional aerosols -/

section
variable {F : Type}

/-- A row of the gas parameter table: column name to value. -/
abbrev GasRow (F : Type) := Dict (PyVal F)

/-- `REG_MAPPING_DEFAULT`, pub_utils.py:13-19. -/
def regMappingDefault : Dict String :=
  [("ASIA", "EAS"), ("LAM", "SAM"), ("MAF", "NAF"), ("OECD", "NAM"), ("REF", "RBU")]

/-- The table of regional efficiencies: columns in order, and a value for column and row. -/
structure RegTable (F : Type) where
  columns : List String
  value : String → String → Option F

/-- The inner loop, pub_utils.py:209-213. -/
def regionLoop [Mul F] (reg : RegTable F) (unit : F) (column : String) :
    Dict String → GasRow F → Dict (GasRow F) → Except PyErr (Dict (GasRow F))
  | [], _, gases => .ok gases
  | (key, expression) :: rest, row, gases =>
    match reg.value column expression with
    | none => .error .keyError
    | some a =>
      let row := Dict.set row "ALPHA" (.flt (a * unit))
      regionLoop reg unit column rest row (Dict.set gases (column ++ "_" ++ key) row)

/-- The outer loop, pub_utils.py:207-213; rows are always taken from the original table. -/
def columnLoop [Mul F] (original : Dict (GasRow F)) (reg : RegTable F) (mapping : Dict String)
    (unit : F) : List String → Dict (GasRow F) → Except PyErr (Dict (GasRow F))
  | [], gases => .ok gases
  | column :: rest, gases => do
    let row ← Dict.getE original column
    let gases ← regionLoop reg unit column mapping row gases
    columnLoop original reg mapping unit rest gases

/-- `make_regional_aerosol_gaspamdata`, pub_utils.py:175-214. -/
def makeRegional [Mul F] (gases : Dict (GasRow F)) (reg : RegTable F)
    (mapping : Option (Dict String)) (unit : F) : Except PyErr (Dict (GasRow F)) :=
  columnLoop gases reg (mapping.getD regMappingDefault) unit reg.columns gases

end
end Verif.Model.PubUtils
