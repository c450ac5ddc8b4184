import Verif.Py.Dict

/-!
# Parameter distributions: `parallel/_configdistro.py`

The random samplers are not modelled: the sampled matrix is an arbitrary input, given as the list
of its rows, a row being a function of the column number.
-/

namespace Verif.Model.ConfigDistro
open Verif.Py

variable {V : Type}

/-- `ordering_standard_forc`, _configdistro.py:73-86. -/
def orderingStandardForc : List String :=
  ["rlamdo", "akapa", "cpi", "W", "beto", "lambda", "mixed", "ocean_efficacy",
   "delta_lambda_aero", "threstemp", "lm", "ldtime"]

/-- Keys of `CARBON_CYCLE_MODEL_REQUIRED_PAMSET`, carbon_cycle_mod.py:80-94. -/
def carbonRequired : List String :=
  ["beta_f", "mixed_carbon", "ml_w_sigmoid", "ml_fracmax", "ml_t_half", "t_half", "w_sigmoid",
   "t_threshold", "w_threshold", "solubility_sens", "solubility_limit", "ml_depth_min",
   "preindustrial_co2_conc"]

/-- `pam.startswith(("rb_", "rs_"))`, _configdistro.py:362. -/
def startsRbRs (pam : String) : Bool :=
  ("rb_".toList.isPrefixOf pam.toList) || ("rs_".toList.isPrefixOf pam.toList)

/-- `ordering`, _configdistro.py:148-157. -/
def ordering (forc : Bool) (distroKeys : List String) (setvalues : Dict V) : List String :=
  let sorted := distroKeys.mergeSort (fun a b => decide (a ≤ b))
  if forc then sorted.filter (fun o => orderingStandardForc.contains o && !setvalues.has o)
  else sorted.filter (fun o => !setvalues.has o)

/-- The three parameter sets of a configuration. -/
structure Sets (V : Type) where
  udm : Dict V
  emiconc : Dict V
  carbon : Dict V

/-- One iteration of `_set_pamsets_start`, _configdistro.py:200-206. -/
def startStep (s : Sets V) (p : String × V) : Sets V :=
  if orderingStandardForc.contains p.1 then { s with udm := s.udm.set p.1 p.2 }
  else if carbonRequired.contains p.1 then { s with carbon := s.carbon.set p.1 p.2 }
  else { s with emiconc := s.emiconc.set p.1 p.2 }

/-- `_set_pamsets_start`, _configdistro.py:193-206. -/
def pamsetsStart (setvalues : Dict V) : Sets V := setvalues.foldl startStep ⟨[], [], []⟩

/-- One iteration of the loop over the sampled parameters, _configdistro.py:354-365. -/
def sampleStep (forc : Bool) (row : Nat → V) (s : Sets V) (p : String × Nat) : Sets V :=
  if orderingStandardForc.contains p.1 then { s with udm := s.udm.set p.1 (row p.2) }
  else if !forc && carbonRequired.contains p.1 then
    { s with carbon := s.carbon.set p.1 (row p.2) }
  else if !forc && startsRbRs p.1 then { s with carbon := s.carbon.set p.1 (row p.2) }
  else if !forc then { s with emiconc := s.emiconc.set p.1 (row p.2) }
  else s

/-- A configuration, _configdistro.py:367-372. -/
structure Config (V : Type) where
  sets : Sets V
  index : String

/-- The `_ConfigDistro` object after construction, _configdistro.py:137-163 (`prior` and `method`
only matter for the samplers). -/
structure Distro (V : Type) where
  forc : Bool
  ordering : List String
  setvalues : Dict V

/-- `_ConfigDistro.__init__`, _configdistro.py:137-163. -/
def init (forc : Bool) (distroKeys : List String) (setvalues : Dict V) : Distro V :=
  ⟨forc, ordering forc distroKeys setvalues, setvalues⟩

/-- The three sets of one sample, _configdistro.py:351-365. -/
def sampleSets (d : Distro V) (row : Nat → V) : Sets V :=
  d.ordering.zipIdx.foldl (sampleStep d.forc row) (pamsetsStart d.setvalues)

/-- The body of the loop over samples, _configdistro.py:350-372: row `i` of the sample matrix is
looked up when its columns are read. (With no sampled parameters Python never indexes the rows;
the sampler returns `numvalues` rows also then.) -/
def sampleConfig (d : Distro V) (samples : List (Nat → V)) (pre : String) (i : Nat) :
    Except PyErr (Config V) :=
  match samples[i]? with
  | some row => .ok ⟨sampleSets d row, pre ++ toString i⟩
  | none => .error .indexError

/-- A file written by `json.dump`. -/
structure Written (V : Type) where
  name : String
  configs : List (Config V)

/-- `make_single_config_list`, _configdistro.py:322-382. The second component lists the files
written. -/
def makeSingle (d : Distro V) (samples : List (Nat → V)) (numvalues : Nat)
    (fname : Option String) (pre : String) : Except PyErr (List (Config V) × List (Written V)) := do
  let cfgs ← (List.range numvalues).mapM (sampleConfig d samples pre)
  return (cfgs, fname.toList.map (⟨·, cfgs⟩))

/-- Python `str.replace(pat, rep)` on character lists, `pat` not empty; the first argument counts the
characters of an occurrence still to be skipped. -/
def replaceGo (pat rep : List Char) : Nat → List Char → List Char
  | _, [] => []
  | k + 1, _ :: cs => replaceGo pat rep k cs
  | 0, c :: cs =>
    if pat.isPrefixOf (c :: cs) then rep ++ replaceGo pat rep (pat.length - 1) cs
    else c :: replaceGo pat rep 0 cs

/-- The file name of a chunk, _configdistro.py:312. -/
def chunkFname (fname : String) (c : Nat) : String :=
  String.ofList (replaceGo ".json".toList ("chunk_" ++ toString c ++ ".json").toList 0 fname.toList)

/-- One chunk, _configdistro.py:306-319. -/
def makeChunk (d : Distro V) (samples : List (Nat → V)) (numvalues m : Nat)
    (fname : Option String) (pre : String) (c : Nat) :
    Except PyErr (List (Config V) × List (Written V)) :=
  let num := min m (numvalues - c * m)
  makeSingle d ((samples.drop (c * m)).take num) num (fname.map (chunkFname · c))
    (pre ++ "_" ++ toString c ++ "_")

/-- What `make_config_lists` returns. -/
inductive Lists (V : Type) where
  | single (cfgs : List (Config V))
  | chunks (cfgs : List (List (Config V)))

/-- `make_config_lists` after sampling, _configdistro.py:295-320; `numvalues` and `max_chunk_size`
are non-negative integers. `np.ceil(numvalues / max_chunk_size)` is modelled by exact integer
arithmetic (no rounding for realistic sizes). -/
def makeConfigLists (d : Distro V) (samples : List (Nat → V)) (numvalues : Nat)
    (fname : Option String) (pre : String) (maxChunk : Option Nat) :
    Except PyErr (Lists V × List (Written V)) :=
  match maxChunk with
  | none => do
    let r ← makeSingle d samples numvalues fname pre
    return (.single r.1, r.2)
  | some m =>
    if numvalues < m then do
      let r ← makeSingle d samples numvalues fname pre
      return (.single r.1, r.2)
    else if m = 0 then .error .zeroDivision
    else do
      let rs ← (List.range ((numvalues + m - 1) / m)).mapM
        (makeChunk d samples numvalues m fname pre)
      return (.chunks (rs.map Prod.fst), rs.flatMap Prod.snd)

end Verif.Model.ConfigDistro
