import Verif.Model.Carbon

/-!
# Back-calculation of emissions: `carbon_cycle/carbon_cycle_abstract.py`

The abstract base class is modelled as a record of the methods its subclasses provide.
-/

namespace Verif.Model.BackCalc
open Verif.Py

/-- The methods of a concrete carbon cycle the back-calculation uses
(carbon_cycle_abstract.py:85-141): one year forward (`co2em2conc`, year index, emission, feedback),
the concentration that call returned, and saving / restoring the scalar state. -/
structure CCModel (S H F : Type) where
  co2em2conc : S → Nat → F → Option F → S
  conc : S → F
  getHold : S → H
  setHold : S → H → S

/-- Result of one search: the returned guess, the model state left behind, and (ghost) the guesses
for which the model was run forward, in order. -/
structure Found (S F : Type) where
  guess : F
  state : S
  evals : List F

section
variable {S H F : Type} [Add F] [Sub F] [Mul F] [Div F] [OfScientific F] [LT F] [DecidableLT F]
  [MathFn F]

/-- carbon_cycle_abstract.py:211 the loop condition apart from the iteration count. -/
def notConverged (target est rtol : F) : Bool := decide (rtol < MathFn.abs (target - est) / target)

/-- carbon_cycle_abstract.py:209-225 the `while` loop; the first argument is `maxit - iteration`. -/
def bisectLoop (m : CCModel S H F) (yrix : Nat) (fb : Option F) (hold : H) (target rtol : F) :
    Nat → (maxG minG : F) → Found S F → Found S F
  | 0, _, _, r => r
  | n + 1, maxG, minG, r =>
    if notConverged target (m.conc r.state) rtol then
      if target < m.conc r.state then
        let guess := (r.guess + minG) / 2.0
        bisectLoop m yrix fb hold target rtol n r.guess minG
          ⟨guess, m.co2em2conc (m.setHold r.state hold) yrix guess fb, r.evals ++ [guess]⟩
      else
        let guess := (r.guess + maxG) / 2.0
        bisectLoop m yrix fb hold target rtol n maxG r.guess
          ⟨guess, m.co2em2conc (m.setHold r.state hold) yrix guess fb, r.evals ++ [guess]⟩
    else r

/-- carbon_cycle_abstract.py:157-225 `_guess_emissions_iteration`; `np.mean` of two numbers. -/
def guessEmissions (m : CCModel S H F) (st : S) (target : F) (maxMin : F × F) (yrix : Nat)
    (fb : Option F) (rtol : F) (maxit : Nat) : Found S F :=
  let maxG := maxMin.1
  let minG := maxMin.2
  let guess := (minG + maxG) / 2.0
  let hold := m.getHold st
  bisectLoop m yrix fb hold target rtol maxit maxG minG
    ⟨guess, m.co2em2conc st yrix guess fb, [guess]⟩

/-- carbon_cycle_abstract.py:245-267 `get_initial_max_min_guess` with `em_width` given;
`np.min`/`np.max` of two numbers. Returns `(max, min)`. -/
def initialMaxMin (concNow concZero emWidth : F) : F × F :=
  let change := concNow - concZero
  let a := change * Carbon.PPM_CO2_TO_PG_C + 8.0 * emWidth
  let b := change * Carbon.PPM_CO2_TO_PG_C - 4.0 * emWidth
  let minG := if b < a then b else a
  let maxG := if a < b then b else a
  if maxG - minG < 1.0 then (maxG + 1.0, minG - 1.0) else (maxG, minG)

/-- carbon_cycle_abstract.py:342-355 the loop of `back_calculate_emissions`, from year index `i` on.
`width i` is `emissions_width[i * idtm]`, `fb i` the feedback of year `i`. Default tolerance and
iteration limit are passed explicitly (lines 163-164: 1e-7, 100). -/
def backLoop (m : CCModel S H F) (width : Nat → F) (fb : Nat → Option F) (rtol : F) (maxit : Nat) :
    Nat → F → List F → S → List F × S
  | _, _, [], st => ([], st)
  | i, prev, c :: cs, st =>
    let r := guessEmissions m st c (initialMaxMin c prev (width i)) i (fb i) rtol maxit
    let rest := backLoop m width fb rtol maxit (i + 1) c cs r.state
    (r.guess :: rest.1, rest.2)

end

section
variable {F : Type} [Add F] [Sub F] [Mul F] [Div F] [Neg F] [OfScientific F] [LT F] [DecidableLT F]
  [MathFn F]

/-- The default carbon cycle as an instance (carbon_cycle_mod.py overrides all four). -/
def defaultModel (p : Carbon.Pams F) : CCModel (Carbon.State F) (Carbon.Hold F) F :=
  { co2em2conc := Carbon.co2em2conc p, conc := fun s => s.xCO2,
    getHold := Carbon.getHold, setHold := Carbon.setHold }

/-- carbon_cycle_abstract.py:304-355 `back_calculate_emissions` of the default carbon cycle with
`make_guess_emsize_estimates` overridden by carbon_cycle_mod.py:755-793 (ffer of the concentration
series). -/
def backCalculate (p : Carbon.Pams F) (st : Carbon.State F) (concs : List F) (dtemp : Nat → F) :
    List F × Carbon.State F :=
  let width := fun i => Carbon.fferSeries p
    (Carbon.dfnppOfConc p (fun y => concs.getD y 0.0) dtemp) (i * p.idtm)
  backLoop (defaultModel p) width (fun i => some (dtemp i)) 1e-7 100 0 p.preindustrial_co2_conc concs st

end
end Verif.Model.BackCalc
