import Verif.Py.Dict

/-!
# Model of `/repo/src/ciceroscm/_utils.py`

Log messages are not modelled.  A function that mutates its dictionary argument and returns it is
modelled by the returned dictionary.
-/

namespace Verif.Model
open Verif.Py

variable {F : Type}

/-- One iteration of the loop in `check_numeric_pamset`. _utils.py:32-42. -/
def checkNumericStep (pamset : Dict (PyVal F)) (p : String × PyVal F) : Dict (PyVal F) :=
  match pamset.get? p.1 with
  | none => pamset.set p.1 p.2                 -- lines 33-37: missing, use default
  | some v =>
    if !v.isNum then pamset.set p.1 p.2        -- lines 38-42: not a number, use default
    else pamset

/-- `check_numeric_pamset(required, pamset)`. _utils.py:10-43. -/
def checkNumericPamset (required pamset : Dict (PyVal F)) : Dict (PyVal F) :=
  required.foldl checkNumericStep pamset

/-- `cut_non_required(required, pamset)`; only the keys of `required` matter. _utils.py:46-75. -/
def cutNonRequired (required pamset : Dict (PyVal F)) : Dict (PyVal F) :=
  pamset.foldl (fun new p => if required.has p.1 then new.set p.1 p.2 else new) []

/-- The `used` dictionary after lines 107-110 of `cut_and_check_pamset`: an empty `used` is
replaced by `required`, a non-empty one is updated with `required`. _utils.py:107-110. -/
def usedKeys (required used : Dict (PyVal F)) : Dict (PyVal F) :=
  if used.isEmpty then required else used.update required

/-- `cut_and_check_pamset(required, pamset, used)`. _utils.py:78-112. -/
def cutAndCheckPamset (required pamset used : Dict (PyVal F)) : Dict (PyVal F) :=
  checkNumericPamset required (cutNonRequired (usedKeys required used) pamset)

/-- One iteration of the loop of `update_pam_if_numeric`. _utils.py:139-150. -/
def updatePamStep (canChange : List String) (old : Dict (PyVal F)) (p : String × PyVal F) :
    Dict (PyVal F) :=
  if !(canChange.contains p.1) || !(old.has p.1) then old    -- lines 140-144
  else if !p.2.isNum then old                                -- lines 145-149
  else old.set p.1 p.2                                       -- line 150

/-- `update_pam_if_numeric(pamset_old, pamset_new, can_change)`; `pamset_new` may be `None`.
_utils.py:115-151. -/
def updatePamIfNumeric (old : Dict (PyVal F)) (new : Option (Dict (PyVal F)))
    (canChange : List String) : Dict (PyVal F) :=
  match new with
  | none => old                                              -- lines 137-138
  | some new => new.foldl (updatePamStep canChange) old

end Verif.Model
