import Verif.Py.Dict

/-!
# Configuration files: `parallel/distributionrun.py`, `parallel/_configdistro.py`

A file is represented by the JSON value it contains: `json.dump` followed by `json.load` is trusted
to be the identity on JSON values (keys strings, finite floats; Python tuples and `numpy` integers
are outside the model).
-/

namespace Verif.Model.Distribution
open Verif.Py

/-- A JSON value, as `json.load` returns it. `null` is `None`. -/
inductive JVal (F : Type) where
  | null
  | bool (b : Bool)
  | num (x : F)
  | str (s : String)
  | arr (xs : List (JVal F))
  | obj (d : List (String × JVal F))

variable {F : Type}

/-- `x is None`. -/
def JVal.isNone : JVal F → Bool
  | .null => true
  | _ => false

/-- Existing files and their JSON contents. -/
abbrev Files (F : Type) := String → Option (JVal F)

/-- `open(name, "w")` followed by `json.dump`. -/
def Files.write (fs : Files F) (name : String) (v : JVal F) : Files F :=
  fun n => if n = name then some v else fs n

/-- The attributes of a `DistributionRun`. -/
structure DistRun (F : Type) where
  cfgs : JVal F
  meta_info : JVal F

/-- distributionrun.py:48-57: interpretation of the loaded file. -/
def load (json_info : JVal F) : Except PyErr (DistRun F) :=
  match json_info with
  | .obj d =>
    match Dict.get? d "configurations" with
    | some c => .ok ⟨c, (Dict.get? d "meta_info").getD .null⟩   -- lines 48-50
    | none => .error .valueError                                -- lines 54-57
  | .arr l => .ok ⟨.arr l, .null⟩                               -- lines 51-53
  | _ => .error .valueError

/-- `DistributionRun.__init__`, distributionrun.py:45-62. `generated` is the result of
`distro_config.make_config_lists(numvalues, indexer_pre=indexer_pre)`, used when the file does not
exist. -/
def construct (fs : Files F) (name : String) (generated : Except PyErr (JVal F)) :
    Except PyErr (DistRun F) :=
  match fs name with
  | some v => load v
  | none =>
    match generated with
    | .ok c => .ok ⟨c, .null⟩
    | .error e => .error e

/-- `DistributionRun.write_configs_to_json`, distributionrun.py:92-97. -/
def writeConfigs (fs : Files F) (r : DistRun F) (name : String) (meta_info : JVal F) : Files F :=
  if meta_info.isNone && r.meta_info.isNone then fs.write name r.cfgs
  else fs.write name (.obj [("meta_info", meta_info), ("configurations", r.cfgs)])

/-- The writing part of `make_single_config_list`, _configdistro.py:373-381. -/
def writeSingle (fs : Files F) (config_list : List (JVal F)) (json_fname : Option String)
    (meta_info : JVal F) : Files F :=
  match json_fname with
  | none => fs
  | some name =>
    if meta_info.isNone then fs.write name (.arr config_list)
    else fs.write name (.obj [("configurations", .arr config_list), ("meta_info", meta_info)])

end Verif.Model.Distribution
