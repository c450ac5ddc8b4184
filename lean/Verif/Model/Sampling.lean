import Verif.Py.Basic
import Verif.Model.ConfigDistro

/-!
# Sampling a parameter distribution: `parallel/_configdistro.py`

The random numbers are an input of the model: a matrix `u i j` (row = sample, column = parameter).
For the Latin hypercube it is what `qmc.LatinHypercube(d).random(n)` returns, for the Gaussian method
`u i j` is the `i`-th standard normal draw of `np.random.normal(loc, scale, size)` number `j`,
which returns `loc + scale * draw`.
-/

namespace Verif.Model.Sampling
open Verif.Py Verif.Model.ConfigDistro

variable {F : Type} [Add F] [Sub F] [Mul F] [Div F] [Neg F] [OfScientific F] [LT F] [DecidableLT F]

/-- `prior_flat`, _configdistro.py:16-70. -/
def priorFlat : Dict (List F) :=
  [("rlamdo", [5.0, 25.0]), ("akapa", [0.06, 0.8]), ("cpi", [0.161, 0.569]), ("W", [0.55, 2.55]),
   ("beto", [0.0, 7.0]), ("lambda", [1.85 / 3.71, 8.01 / 3.71]), ("mixed", [25.0, 125.0]),
   ("ocean_efficacy", [0.8, 1.2]), ("delta_lambda_aero", [-0.7, 3.4]), ("qbmb", [0.0, 2.0]),
   ("qo3", [0.4, 0.6]), ("qdirso2", [-0.006, -0.001]), ("qindso2", [-0.03, -0.01]),
   ("qbc", [0.004, 0.05]), ("qoc", [-0.008, -0.001]), ("qh2o_ch4", [0.08, 0.1]),
   ("beta_f", [0.110, 0.465]), ("mixed_carbon", [25.0, 125.0]), ("ml_w_sigmoid", [2.0, 4.0]),
   ("ml_fracmax", [0.3, 0.8]), ("ml_t_half", [-0.5, 1.0]), ("npp0", [55.0, 75.0]),
   ("t_half", [0.3, 0.8]), ("w_sigmoid", [5.0, 10.0]), ("t_threshold", [3.0, 7.0]),
   ("w_threshold", [5.0, 10.0]), ("solubility_sens", [0.01, 0.03]),
   ("solubility_limit", [0.4, 0.8]), ("rb_coef0", [0.3, 0.7]), ("rb_coef1", [0.1, 0.4]),
   ("rb_coef2", [0.1, 0.4]), ("rb_tim0", [1.0, 5.0]), ("rb_tim1", [5.0, 20.0]),
   ("rb_tim2", [40.0, 200.0]), ("rs_coef0", [0.05, 0.15]), ("rs_coef1", [0.5, 0.7]),
   ("rs_coef2", [0.1, 0.2]), ("rs_coef3", [0.1, 0.2]), ("rs_tim0", [0.5, 3.0]),
   ("rs_tim1", [5.0, 20.0]), ("rs_tim2", [40.0, 200.0])]

/-- `set_values_default`, _configdistro.py:89-95. -/
def setValuesDefault : Dict F :=
  [("threstemp", 7.0), ("lm", 40.0), ("ldtime", 12.0), ("qbmb", 0.0), ("qh2o_ch4", 0.091915)]

/-- `prior[i, :] = distro_dict[pam]`, _configdistro.py:190: a list of two numbers is stored, a list
of one number is broadcast to both places, any other length is a `ValueError`. (A bare number, which
is broadcast too, is represented by the list of one number.) -/
def bounds : List F → Except PyErr (F × F)
  | [a, b] => .ok (a, b)
  | [a] => .ok (a, a)
  | _ => .error .valueError

/-- `_set_prior`, _configdistro.py:188-191. -/
def setPrior (ordering : List String) (distro : Dict (List F)) : Except PyErr (List (F × F)) :=
  ordering.mapM fun pam =>
    match distro.get? pam with
    | none => .error .keyError
    | some l => bounds l

/-- The `_ConfigDistro` object with its prior. -/
structure Full (F : Type) where
  distro : Distro F
  method : String
  prior : List (F × F)

/-- `_ConfigDistro.__init__`, _configdistro.py:137-163; `none` is an omitted argument or option. -/
def construct (distro : Option (Dict (List F))) (setvalues : Option (Dict F))
    (forc : Option Bool) (method : Option String) : Except PyErr (Full F) := do
  let sv := setvalues.getD setValuesDefault
  let ds := distro.getD priorFlat
  let d := init (forc.getD false) (Dict.keys ds) sv
  let prior ← setPrior d.ordering ds
  return ⟨d, method.getD "latin", prior⟩

/-- An element of `qmc.scale(samples_unit, lower, upper)`: `sample * (upper - lower) + lower`. -/
def latinValue (prior : List (F × F)) (u : Nat → Nat → F) (i j : Nat) : F :=
  match prior[j]? with
  | some b => u i j * (b.2 - b.1) + b.1
  | none => u i j

/-- `qmc.scale` of a sample of `n` rows, as called in _configdistro.py:227-229: bounds that are not
increasing and an empty sample (`sample.max()`) are refused with a `ValueError`. The sample itself
is in the unit cube. -/
def scaleLatin (prior : List (F × F)) (n : Nat) (u : Nat → Nat → F) :
    Except PyErr (List (Nat → F)) :=
  if n = 0 ∨ prior = [] then .error .valueError
  else if prior.all (fun b => decide (b.1 < b.2)) then
    .ok ((List.range n).map (latinValue prior u))
  else .error .valueError

/-- An element of the Gaussian sample, _configdistro.py:247-255: `loc` is the mean of the bounds,
`scale` the distance from it to the upper bound. -/
def gaussianValue (prior : List (F × F)) (u : Nat → Nat → F) (i j : Nat) : F :=
  match prior[j]? with
  | some b => (b.1 + b.2) / 2.0 + (b.2 - (b.1 + b.2) / 2.0) * u i j
  | none => u i j

/-- `get_samples_from_distro_gaussian`, _configdistro.py:247-255: `np.random.normal` refuses a
negative scale with a `ValueError`. (With no parameters there are `n` rows without columns.) -/
def gaussian (prior : List (F × F)) (n : Nat) (u : Nat → Nat → F) : Except PyErr (List (Nat → F)) :=
  if prior.any (fun b => decide (b.2 - (b.1 + b.2) / 2.0 < 0.0)) then .error .valueError
  else .ok ((List.range n).map (gaussianValue prior u))

/-- `make_config_lists`, _configdistro.py:291-320. -/
def make (d : Full F) (n : Nat) (u : Nat → Nat → F) (fname : Option String) (pre : String)
    (maxChunk : Option Nat) : Except PyErr (Lists F × List (Written F)) := do
  let samples ← if d.method = "latin" then scaleLatin d.prior n u else gaussian d.prior n u
  makeConfigLists d.distro samples n fname pre maxChunk

end Verif.Model.Sampling
