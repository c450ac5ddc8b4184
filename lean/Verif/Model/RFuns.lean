import Verif.Py.Dict

/-!
# Impulse response functions: `carbon_cycle/rfuns.py`, and the input check of `pub_utils.py`
-/

namespace Verif.Model
open Verif.Py

section
variable {F : Type} [Add F] [Sub F] [Mul F] [Div F] [Neg F] [OfScientific F] [LT F] [DecidableLT F]
  [MathFn F]

/-- rfuns.py:146-154 `rb_function` at `time = it / idtm`. -/
def rbAt (time : F) : F :=
  0.70211 * MathFn.exp (-0.35 * time)
    + 13.4141e-3 * MathFn.exp (-time / 20.0)
    - 0.71846 * MathFn.exp (-55.0 * time / 120.0)
    + 2.9323e-3 * MathFn.exp (-time / 100.0)

/-- rfuns.py:128-154 `rb_function`. -/
def rbFunction (it idtm : Nat) : F := rbAt (ofInt it / ofInt idtm)

/-- rfuns.py:185-198 `rb_function2` at one time; the sum over pools in list order. -/
def rb2At (coef tim : List F) (time : F) : F :=
  let s := fsum coef
  fsum (List.zipWith (fun c t => time * ((c / s) / (t * t)) * MathFn.exp (-time / t)) coef tim)

/-- rfuns.py:157-198 `rb_function2`. -/
def rbFunction2 (coef tim : List F) (it idtm : Nat) : F := rb2At coef tim (ofInt it / ofInt idtm)

/-- rfuns.py:222-228, the short-time branch of `rs_function`. -/
def rsShort (time : F) : F :=
  0.12935
    + 0.21898 * MathFn.exp (-time / 0.034569)
    + 0.17003 * MathFn.exp (-time / 0.26936)
    + 0.24071 * MathFn.exp (-time / 0.96083)
    + 0.24093 * MathFn.exp (-time / 4.9792)

/-- rfuns.py:230-237, the long-time branch of `rs_function`. -/
def rsLong (time : F) : F :=
  0.022936
    + 0.24278 * MathFn.exp (-time / 1.2679)
    + 0.13963 * MathFn.exp (-time / 5.2528)
    + 0.089318 * MathFn.exp (-time / 18.601)
    + 0.03782 * MathFn.exp (-time / 68.736)
    + 0.035549 * MathFn.exp (-time / 232.3)

/-- rfuns.py:220-238 `rs_function` at `time = it / idtm`. -/
def rsAt (time : F) : F := if time < 2.0 then rsShort time else rsLong time

/-- rfuns.py:201-241 `rs_function` / `rs_function_array` (elementwise). -/
def rsFunction (it idtm : Nat) : F := rsAt (ofInt it / ofInt idtm)

/-- rfuns.py:276-291 `rs_function2` at one time: the first coefficient is the constant share, the
others decay with the timescale one position earlier. -/
def rs2At (coef tim : List F) (time : F) : F :=
  let s := fsum coef
  match coef with
  | [] => 0.0
  | c0 :: cs => fsum (c0 / s :: List.zipWith (fun c t => c / s * MathFn.exp (-time / t)) cs tim)

/-- rfuns.py:244-291 `rs_function2`. -/
def rsFunction2 (coef tim : List F) (it idtm : Nat) : F := rs2At coef tim (ofInt it / ofInt idtm)

/-- pub_utils.py:46-101 `_check_array_consistency`: length check (one extra coefficient for the
ocean response), then no negative timescale and no
negative coefficient (both raise `ValueError`, so the order is not observable); returns the lists. -/
def checkArrayConsistency (coef tim : List F) (forRs : Bool) : Except PyErr (List F × List F) :=
  if coef.length ≠ tim.length + (if forRs then 1 else 0) then .error .valueError
  else if coef.any (fun x => decide (x < 0.0)) || tim.any (fun x => decide (x < 0.0)) then
    .error .valueError
  else .ok (coef, tim)

end
end Verif.Model
