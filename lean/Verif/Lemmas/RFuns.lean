import Verif.Model.RFuns
import Verif.Py.RealInst
import Mathlib.Analysis.SpecialFunctions.Exponential
import Mathlib.MeasureTheory.Integral.Gamma
import Mathlib.Analysis.SpecialFunctions.Gaussian.GaussianIntegral
import Mathlib.Analysis.Complex.ExponentialBounds

/-!
# Helper lemmas for the impulse response functions
-/

namespace Verif.Model
open Verif.Py Filter Topology MeasureTheory Set

theorem exp_decay_antitone {τ : ℝ} (hτ : 0 < τ) : Antitone (fun t : ℝ => Real.exp (-t / τ)) := by
  intro a b h
  apply Real.exp_le_exp.2
  rw [div_le_div_iff_of_pos_right hτ]; linarith

theorem exp_decay_strictAnti {τ : ℝ} (hτ : 0 < τ) : StrictAnti (fun t : ℝ => Real.exp (-t / τ)) := by
  intro a b h
  apply Real.exp_lt_exp.2
  rw [div_lt_div_iff_of_pos_right hτ]; linarith

theorem exp_decay_le_one {τ t : ℝ} (hτ : 0 < τ) (ht : 0 ≤ t) : Real.exp (-t / τ) ≤ 1 := by
  rw [Real.exp_le_one_iff]
  exact div_nonpos_of_nonpos_of_nonneg (by linarith) hτ.le

theorem exp_decay_tendsto {τ : ℝ} (hτ : 0 < τ) :
    Tendsto (fun t : ℝ => Real.exp (-t / τ)) atTop (𝓝 0) := by
  have h1 : Tendsto (fun t : ℝ => t / τ) atTop atTop := tendsto_id.atTop_div_const hτ
  have := Real.tendsto_exp_neg_atTop_nhds_zero.comp h1
  refine this.congr (fun t => ?_)
  simp [Function.comp, neg_div]

/-! ## sums over pools -/

theorem zsum_nonneg {cs ts : List ℝ} {g : ℝ → ℝ → ℝ} (h : ∀ c ∈ cs, ∀ t ∈ ts, 0 ≤ g c t) :
    0 ≤ (List.zipWith g cs ts).sum := by
  induction cs generalizing ts with
  | nil => simp
  | cons c cs ih =>
    cases ts with
    | nil => simp
    | cons t ts =>
      simp only [List.zipWith_cons_cons, List.sum_cons]
      have h1 := h c (by simp) t (by simp)
      have h2 := ih (ts := ts) (fun c hc t ht => h c (by simp [hc]) t (by simp [ht]))
      linarith

theorem zsum_le {cs ts : List ℝ} {g g' : ℝ → ℝ → ℝ} (h : ∀ c ∈ cs, ∀ t ∈ ts, g c t ≤ g' c t) :
    (List.zipWith g cs ts).sum ≤ (List.zipWith g' cs ts).sum := by
  induction cs generalizing ts with
  | nil => simp
  | cons c cs ih =>
    cases ts with
    | nil => simp
    | cons t ts =>
      simp only [List.zipWith_cons_cons, List.sum_cons]
      have h1 := h c (by simp) t (by simp)
      have h2 := ih (ts := ts) (fun c hc t ht => h c (by simp [hc]) t (by simp [ht]))
      linarith

theorem zsum_fst {cs ts : List ℝ} (hl : cs.length = ts.length) (s : ℝ) :
    (List.zipWith (fun c _ => c / s) cs ts).sum = cs.sum / s := by
  induction cs generalizing ts with
  | nil => simp
  | cons c cs ih =>
    cases ts with
    | nil => simp at hl
    | cons t ts =>
      simp only [List.zipWith_cons_cons, List.sum_cons]
      rw [ih (by simpa using hl)]; ring

theorem zsum_tendsto_zero {cs ts : List ℝ} {g : ℝ → ℝ → ℝ → ℝ} {l : Filter ℝ}
    (h : ∀ c ∈ cs, ∀ t ∈ ts, Tendsto (fun x => g x c t) l (𝓝 0)) :
    Tendsto (fun x => (List.zipWith (g x) cs ts).sum) l (𝓝 0) := by
  induction cs generalizing ts with
  | nil => simpa using tendsto_const_nhds
  | cons c cs ih =>
    cases ts with
    | nil => simpa using tendsto_const_nhds
    | cons t ts =>
      simp only [List.zipWith_cons_cons, List.sum_cons]
      have h1 := h c (by simp) t (by simp)
      have h2 := ih (ts := ts) (fun c hc t ht => h c (by simp [hc]) t (by simp [ht]))
      simpa using h1.add h2

theorem rs2At_cons (c0 : ℝ) (cs tim : List ℝ) (t : ℝ) :
    rs2At (c0 :: cs) tim t = c0 / (c0 + cs.sum) +
      (List.zipWith (fun c τ => c / (c0 + cs.sum) * Real.exp (-t / τ)) cs tim).sum := by
  simp only [rs2At, fsum_eq_sum, List.sum_cons, mexp]

theorem rb2At_eq (coef tim : List ℝ) (t : ℝ) :
    rb2At coef tim t =
      (List.zipWith (fun c τ => t * ((c / coef.sum) / (τ * τ)) * Real.exp (-t / τ)) coef tim).sum := by
  simp only [rb2At, fsum_eq_sum, mexp]

/-- `∫₀^∞ t/τ² exp(-t/τ) dt = 1`. -/
theorem pool_integrable {τ : ℝ} (hτ : 0 < τ) (a : ℝ) :
    IntegrableOn (fun t => t * (a / (τ * τ)) * Real.exp (-t / τ)) (Ioi 0) := by
  have h := integrableOn_rpow_mul_exp_neg_mul_rpow (s := 1) (p := 1) (b := 1 / τ)
    (by norm_num) (by norm_num) (by positivity)
  have := h.const_mul (a / (τ * τ))
  refine this.congr (ae_of_all _ fun t => ?_)
  simp only [Real.rpow_one]
  rw [show -(1 / τ) * t = -t / τ by ring]; ring

theorem pool_integral {τ : ℝ} (hτ : 0 < τ) (a : ℝ) :
    ∫ t in Ioi (0 : ℝ), t * (a / (τ * τ)) * Real.exp (-t / τ) = a := by
  have h := Real.integral_rpow_mul_exp_neg_mul_Ioi (a := 2) (r := 1 / τ) (by norm_num) (by positivity)
  have h2 : ∀ t ∈ Ioi (0 : ℝ), t * (a / (τ * τ)) * Real.exp (-t / τ) =
      (a / (τ * τ)) * (t ^ ((2 : ℝ) - 1) * Real.exp (-(1 / τ * t))) := by
    intro t _
    rw [show (2 : ℝ) - 1 = 1 by norm_num, Real.rpow_one, show -(1 / τ * t) = -t / τ by ring]; ring
  rw [setIntegral_congr_fun measurableSet_Ioi h2, integral_const_mul, h]
  rw [show (1 / (1 / τ)) = τ by field_simp, show (2 : ℝ) = ((2 : ℕ) : ℝ) by norm_num,
    Real.rpow_natCast, show ((2 : ℕ) : ℝ) = (1 : ℕ) + 1 by norm_num, Real.Gamma_nat_eq_factorial]
  field_simp
  simp

theorem zsum_integral {cs ts : List ℝ} {g : ℝ → ℝ → ℝ → ℝ} {v : ℝ → ℝ}
    (hl : cs.length = ts.length)
    (hi : ∀ c ∈ cs, ∀ t ∈ ts, IntegrableOn (fun x => g x c t) (Ioi 0))
    (h : ∀ c ∈ cs, ∀ t ∈ ts, ∫ x in Ioi (0 : ℝ), g x c t = v c) :
    IntegrableOn (fun x => (List.zipWith (g x) cs ts).sum) (Ioi 0) ∧
    ∫ x in Ioi (0 : ℝ), (List.zipWith (g x) cs ts).sum = (cs.map v).sum := by
  induction cs generalizing ts with
  | nil => simp
  | cons c cs ih =>
    cases ts with
    | nil => simp at hl
    | cons t ts =>
      simp only [List.zipWith_cons_cons, List.sum_cons, List.map_cons]
      have h1 := hi c (by simp) t (by simp)
      have h1' := h c (by simp) t (by simp)
      obtain ⟨h2, h3⟩ := ih (ts := ts) (by simpa using hl)
        (fun c hc t ht => hi c (by simp [hc]) t (by simp [ht]))
        (fun c hc t ht => h c (by simp [hc]) t (by simp [ht]))
      refine ⟨h1.add h2, ?_⟩
      rw [integral_add h1 h2, h1', h3]

/-! ## numeric bounds on exponentials -/

/-- Two-sided Taylor bound with 8 terms. -/
theorem exp_neg_bounds {y : ℝ} (h0 : 0 ≤ y) (h1 : y ≤ 1) :
    1 - y + y^2/2 - y^3/6 + y^4/24 - y^5/120 + y^6/720 - y^7/5040 - y^8/30000 ≤ Real.exp (-y) ∧
    Real.exp (-y) ≤ 1 - y + y^2/2 - y^3/6 + y^4/24 - y^5/120 + y^6/720 - y^7/5040 + y^8/30000 := by
  have h := Real.exp_bound (x := -y) (n := 8) (by rw [abs_neg, abs_of_nonneg h0]; exact h1) (by norm_num)
  rw [abs_neg, abs_of_nonneg h0] at h
  simp only [Finset.sum_range_succ, Finset.sum_range_zero, Nat.factorial] at h
  norm_num at h
  rw [abs_le] at h
  have hy8 : 0 ≤ y ^ 8 := by positivity
  constructor
  · have := h.1
    ring_nf at this ⊢
    linarith
  · have := h.2
    ring_nf at this ⊢
    linarith

end Verif.Model
