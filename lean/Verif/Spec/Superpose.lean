import Verif.Model.Driver
import Verif.Py.RealInst

/-!
# Adding up and comparing prescribed forcings (C93), independent of the proofs
-/

namespace Verif.Spec
open Verif.Py Verif.Model Verif.Model.Handler Verif.Model.Driver

/-- What a run with prescribed forcing puts into its year number `n`: the forcings of the two hemispheres (the array's value
in both, or those of the table) with the solar forcing of the year, the aerosol weight (the table's, or zero) and the
volcanic rows. -/
structure YearInput {κ : Type} (d : Driver ℝ κ) (n : ℕ) (w fn fs : ℝ) (vn vs : List ℝ) : Prop where
  volcNorth : d.volcN[n]? = some vn
  volcSouth : d.volcS[n]? = some vs
  forcing : ∃ s, d.sun[n]? = some s ∧
    ((∃ xs x, d.source = .forcing (.array xs) ∧ xs[n]? = some x ∧ fn = x + s ∧ fs = x + s ∧ w = 0) ∨
     (∃ t, d.source = .forcing (.frame t) ∧ fn = t.cell "FORC_NH" (d.nystart + n) + s ∧
       fs = t.cell "FORC_SH" (d.nystart + n) + s ∧
       w = if "w_aero" ∈ t.cols then t.cell "w_aero" (d.nystart + n) else 0))

/-- Over the same years, the inputs of `d` are `a` times those of `d1` plus `b` times those of `d2`, with the same aerosol
weights. -/
structure Superposed {κ : Type} (a b : ℝ) (d1 d2 d : Driver ℝ κ) : Prop where
  start1 : d1.nystart = d.nystart
  start2 : d2.nystart = d.nystart
  end1 : d1.nyend = d.nyend
  end2 : d2.nyend = d.nyend
  years : ∀ n : ℕ, d.nystart + n ≤ d.nyend → ∃ w fn1 fs1 vn1 vs1 fn2 fs2 vn2 vs2,
    YearInput d1 n w fn1 fs1 vn1 vs1 ∧ YearInput d2 n w fn2 fs2 vn2 vs2 ∧
    vn1.length = vn2.length ∧ vs1.length = vs2.length ∧
    YearInput d n w (a * fn1 + b * fn2) (a * fs1 + b * fs2) (List.zipWith (fun x y => a * x + b * y) vn1 vn2)
      (List.zipWith (fun x y => a * x + b * y) vs1 vs2)

/-- Over the same years, with the same aerosol weights, no input of `d1` is larger than that of `d2`. -/
structure WeakerThan {κ : Type} (d1 d2 : Driver ℝ κ) : Prop where
  start : d1.nystart = d2.nystart
  «end» : d1.nyend = d2.nyend
  years : ∀ n : ℕ, d2.nystart + n ≤ d2.nyend → ∃ w fn1 fs1 vn1 vs1 fn2 fs2 vn2 vs2,
    YearInput d1 n w fn1 fs1 vn1 vs1 ∧ YearInput d2 n w fn2 fs2 vn2 vs2 ∧
    fn1 ≤ fn2 ∧ fs1 ≤ fs2 ∧ List.Forall₂ (· ≤ ·) vn1 vn2 ∧ List.Forall₂ (· ≤ ·) vs1 vs2

/-- The weights with which a run with prescribed forcing changes the feedback. -/
def WeightOf {κ : Type} (d : Driver ℝ κ) (w : ℝ) : Prop :=
  ∃ (n : ℕ) (fn fs : ℝ) (vn vs : List ℝ), d.nystart + n ≤ d.nyend ∧ YearInput d n w fn fs vn vs

/-- Entry `i` of the series `o` in `r` is `a` times that in `r1` plus `b` times that in `r2`. -/
def EntrySum (a b : ℝ) (r1 r2 r : Dict (List ℝ)) (o : String) (i : ℕ) : Prop :=
  ∃ l1 l2 l x y, r1.get? o = some l1 ∧ r2.get? o = some l2 ∧ r.get? o = some l ∧
    l1[i]? = some x ∧ l2[i]? = some y ∧ l[i]? = some (a * x + b * y)

/-- Entry `i` of the series `o` in `r1` is not larger than that in `r2`. -/
def EntryLe (r1 r2 : Dict (List ℝ)) (o : String) (i : ℕ) : Prop :=
  ∃ l1 l2 x y, r1.get? o = some l1 ∧ r2.get? o = some l2 ∧ l1[i]? = some x ∧ l2[i]? = some y ∧ x ≤ y

/-- Parameters of the two-layer model for which no layer loses more heat in a year than it has: positive depths, and
feedback and exchange smaller than the heat capacity (per year) of the layers. -/
structure SmallSteps (mixed deep k efficacy f : ℝ) : Prop where
  mixedPos : 0 < mixed
  deepPos : 0 < deep
  exchange : 0 ≤ k
  efficient : 0 ≤ efficacy
  feedback : 0 < f
  fast : f + k * efficacy ≤ mixed * 1000 * 4184 / (86400 * 365)
  slow : k ≤ deep * 1000 * 4184 / (86400 * 365)

end Verif.Spec
