import Verif.Spec.Decay
import Verif.Model.Handler
import Verif.Py.RealInst
import Mathlib.Analysis.Calculus.MeanValue
import Mathlib.Analysis.SpecificLimits.Basic

/-! # The one-year concentration update over the reals -/

namespace Verif.Model.Handler
open Verif.Py Verif.Spec

theorem concUpdate_eq (beta E q c : ℝ) :
    concUpdate beta E q c = E / beta / q + (c - E / beta / q) * Real.exp (-q) := rfl

theorem vanillaUpdate_eq (g : Gas ℝ) (em c : ℝ) :
    vanillaUpdate g em c = concUpdate g.beta (em + g.natEm) (1 / g.tau1) c := by
  have h1 : (1.0 : ℝ) = 1 := by norm_num
  unfold vanillaUpdate
  rw [concUpdate_eq]
  simp only [h1, mexp]
  ring

theorem solves_formula {s q : ℝ} (hq : q ≠ 0) (c : ℝ) :
    SolvesDecay s q (fun t => s / q + (c - s / q) * Real.exp (-q * t)) := by
  intro t _
  have h1 : HasDerivAt (fun t : ℝ => -q * t) (-q) t := by
    simpa using (hasDerivAt_id t).const_mul (-q)
  have h2 := ((h1.exp).const_mul (c - s / q)).const_add (s / q)
  refine h2.congr_deriv ?_
  field_simp
  ring

theorem solves_unique {s q : ℝ} (hq : q ≠ 0) {g : ℝ → ℝ} (hg : SolvesDecay s q g) :
    g 1 = s / q + (g 0 - s / q) * Real.exp (-q) := by
  have hd : ∀ t ∈ Set.Icc (0 : ℝ) 1,
      HasDerivAt (fun t => (g t - s / q) * Real.exp (q * t)) 0 t := by
    intro t ht
    have h1 : HasDerivAt (fun t : ℝ => q * t) q t := by
      simpa using (hasDerivAt_id t).const_mul q
    have h2 := ((hg t ht).sub_const (s / q)).mul h1.exp
    refine h2.congr_deriv ?_
    field_simp
    ring
  have hc := constant_of_has_deriv_right_zero (f := fun t => (g t - s / q) * Real.exp (q * t))
    (a := 0) (b := 1)
    (fun t ht => (hd t ht).continuousAt.continuousWithinAt)
    (fun t ht => (hd t ⟨ht.1, ht.2.le⟩).hasDerivWithinAt) 1 (by norm_num)
  simp only [mul_one, mul_zero, Real.exp_zero] at hc
  have he : Real.exp q * Real.exp (-q) = 1 := by rw [← Real.exp_add]; simp
  have : (g 1 - s / q) = (g 0 - s / q) * Real.exp (-q) := by
    rw [← hc, mul_assoc, he, mul_one]
  linarith

theorem afterOneYear_iff {s q c0 c1 : ℝ} (hq : q ≠ 0) :
    AfterOneYear s q c0 c1 ↔ c1 = s / q + (c0 - s / q) * Real.exp (-q) := by
  constructor
  · rintro ⟨⟨g, h1, h2⟩, h3⟩
    rw [← h3 g h1 h2, ← h2]
    exact solves_unique hq h1
  · rintro rfl
    refine ⟨⟨_, solves_formula hq c0, by simp⟩, ?_⟩
    intro g hg h0
    rw [solves_unique hq hg, h0]

theorem concUpdate_after {beta E q c : ℝ} (hq : q ≠ 0) :
    AfterOneYear (E / beta) q c (concUpdate beta E q c) := by
  rw [afterOneYear_iff hq, concUpdate_eq]

end Verif.Model.Handler
