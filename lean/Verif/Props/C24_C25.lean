import Verif.Model.Carbon
import Verif.Py.RealInst
import Mathlib.Analysis.SpecialFunctions.Log.Deriv
import Mathlib.Analysis.Calculus.Deriv.MeanValue

/-!
# C24, C25: temperature feedbacks and mixed-layer partial pressure (exact arithmetic)
-/

namespace Verif.Props
open Verif.Py Verif.Model.Carbon

/-! ## C24 -/

theorem C24_sigmoid_range (x c w : ℝ) : 0 < sigmoidGen x c w ∧ sigmoidGen x c w < 1 := by
  have h := Real.exp_pos (-((x - c) / w))
  have e1 : (1.0 : ℝ) = 1 := by norm_num
  simp only [sigmoidGen, mexp, e1]
  constructor
  · positivity
  · rw [div_lt_one (by positivity)]; linarith

theorem C24_threshold_range (x h w : ℝ) : 0 < thresholdGen x h w ∧ thresholdGen x h w < 1 := by
  have := C24_sigmoid_range x h w
  have e : thresholdGen x h w = 1 - sigmoidGen x h w := by
    simp only [thresholdGen, sigmoidGen]; norm_num
  rw [e]; constructor <;> linarith [this.1, this.2]

/-- The sigmoid is strictly increasing and the threshold strictly decreasing for positive width. -/
theorem C24_sigmoid_strictMono (c : ℝ) {w : ℝ} (hw : 0 < w) : StrictMono (fun x => sigmoidGen x c w) := by
  intro a b h
  have e1 : (1.0 : ℝ) = 1 := by norm_num
  simp only [sigmoidGen, mexp, e1]
  apply one_div_lt_one_div_of_lt
  · have := Real.exp_pos (-((b - c) / w)); positivity
  · have : Real.exp (-((b - c) / w)) < Real.exp (-((a - c) / w)) := by
      apply Real.exp_lt_exp.2
      have : (a - c) / w < (b - c) / w := by
        rw [div_lt_div_iff_of_pos_right hw]; linarith
      linarith
    linarith

theorem C24_threshold_strictAnti (c : ℝ) {w : ℝ} (hw : 0 < w) :
    StrictAnti (fun x => thresholdGen x c w) := by
  intro a b h
  have := C24_sigmoid_strictMono c hw h
  simp only [thresholdGen, sigmoidGen] at this ⊢
  linarith

/-- Land productivity is exactly its pre-industrial value at zero temperature change. -/
theorem C24_npp_at_zero (p : Pams ℝ) : fnppFromTemp p 0 = 60 := by
  have e0 : (0.0 : ℝ) = 0 := by norm_num
  have h1 := (C24_sigmoid_range 0 p.t_half p.w_sigmoid).1
  have h2 := (C24_threshold_range 0 p.t_threshold p.w_threshold).1
  simp only [fnppFromTemp, e0]
  field_simp
  norm_num

/-- Land productivity is positive at every temperature. -/
theorem C24_npp_pos (p : Pams ℝ) (t : ℝ) : 0 < fnppFromTemp p t := by
  have h1 := (C24_sigmoid_range 0.0 p.t_half p.w_sigmoid).1
  have h2 := (C24_threshold_range 0.0 p.t_threshold p.w_threshold).1
  have h3 := (C24_sigmoid_range t p.t_half p.w_sigmoid).1
  have h4 := (C24_threshold_range t p.t_threshold p.w_threshold).1
  simp only [fnppFromTemp]
  positivity

theorem clip_eq (x lo hi : ℝ) : clip x lo hi = min (max x lo) hi := by
  unfold clip
  simp only
  split_ifs <;> simp only [min_def, max_def] <;> split_ifs <;> linarith

theorem C24_solubility_eq (p : Pams ℝ) (t : ℝ) :
    solubilityTempFeedback p t = min (Real.exp (-p.solubility_sens * t)) (1 + p.solubility_limit) := by
  have e0 : (0.0 : ℝ) = 0 := by norm_num
  have e1 : (1.0 : ℝ) = 1 := by norm_num
  rw [solubilityTempFeedback, clip_eq, e0, e1, mexp, max_eq_left (Real.exp_pos _).le]

/-- Solubility scaling is exactly 1 at zero temperature change (non-negative limit). -/
theorem C24_solubility_at_zero (p : Pams ℝ) (h : 0 ≤ p.solubility_limit) :
    solubilityTempFeedback p 0 = 1 := by
  rw [C24_solubility_eq]; simp [h]

/-- Solubility scaling stays in `[0, 1 + limit]`. -/
theorem C24_solubility_range (p : Pams ℝ) (h : -1 ≤ p.solubility_limit) (t : ℝ) :
    0 ≤ solubilityTempFeedback p t ∧ solubilityTempFeedback p t ≤ 1 + p.solubility_limit := by
  rw [C24_solubility_eq]
  exact ⟨le_min (Real.exp_pos _).le (by linarith), min_le_right _ _⟩

/-- Solubility scaling never increases with warming for non-negative sensitivity. -/
theorem C24_solubility_antitone (p : Pams ℝ) (h : 0 ≤ p.solubility_sens) :
    Antitone (solubilityTempFeedback p) := by
  intro a b hab
  rw [C24_solubility_eq, C24_solubility_eq]
  apply min_le_min_right
  apply Real.exp_le_exp.2
  nlinarith

theorem C24_mixed_eq (p : Pams ℝ) (t : ℝ) : mixedLayerTempFeedback p t =
    max (p.mixed_carbon * (1 - p.ml_fracmax * sigmoidGen t p.ml_t_half p.ml_w_sigmoid) /
      (1 - p.ml_fracmax * sigmoidGen 0 p.ml_t_half p.ml_w_sigmoid)) p.ml_depth_min := by
  have e0 : (0.0 : ℝ) = 0 := by norm_num
  have e1 : (1.0 : ℝ) = 1 := by norm_num
  simp only [mixedLayerTempFeedback, e0, e1, max_def]
  split_ifs <;> linarith

/-- The carbon mixed layer has exactly its configured depth at zero temperature change. -/
theorem C24_mixed_at_zero (p : Pams ℝ) (hmin : p.ml_depth_min ≤ p.mixed_carbon)
    (hf : p.ml_fracmax ≤ 1) : mixedLayerTempFeedback p 0 = p.mixed_carbon := by
  have h := C24_sigmoid_range 0 p.ml_t_half p.ml_w_sigmoid
  have hb : 0 < 1 - p.ml_fracmax * sigmoidGen 0 p.ml_t_half p.ml_w_sigmoid := by nlinarith [h.1, h.2]
  rw [C24_mixed_eq, mul_div_assoc, div_self hb.ne', mul_one, max_eq_left hmin]

/-- It is never shallower than the configured minimum. -/
theorem C24_mixed_min (p : Pams ℝ) (t : ℝ) : p.ml_depth_min ≤ mixedLayerTempFeedback p t := by
  rw [C24_mixed_eq]; exact le_max_right _ _

/-- It never deepens with warming for a non-negative damping fraction up to one. -/
theorem C24_mixed_antitone (p : Pams ℝ) (hm : 0 ≤ p.mixed_carbon) (hf0 : 0 ≤ p.ml_fracmax)
    (hf : p.ml_fracmax ≤ 1) (hw : 0 < p.ml_w_sigmoid) : Antitone (mixedLayerTempFeedback p) := by
  intro a b hab
  have h := C24_sigmoid_range 0 p.ml_t_half p.ml_w_sigmoid
  have hb : 0 < 1 - p.ml_fracmax * sigmoidGen 0 p.ml_t_half p.ml_w_sigmoid := by nlinarith [h.1, h.2]
  have hs : sigmoidGen a p.ml_t_half p.ml_w_sigmoid ≤ sigmoidGen b p.ml_t_half p.ml_w_sigmoid :=
    (C24_sigmoid_strictMono p.ml_t_half hw).monotone hab
  rw [C24_mixed_eq, C24_mixed_eq]
  apply max_le_max_right
  apply div_le_div_of_nonneg_right _ hb.le
  apply mul_le_mul_of_nonneg_left _ hm
  nlinarith

/-- The default parameters satisfy all hypotheses above. -/
example : let p : Pams ℝ := Pams.default 24 351
    0 ≤ p.solubility_limit ∧ 0 ≤ p.solubility_sens ∧ p.ml_depth_min ≤ p.mixed_carbon ∧
    0 ≤ p.mixed_carbon ∧ 0 ≤ p.ml_fracmax ∧ p.ml_fracmax ≤ 1 ∧ 0 < p.ml_w_sigmoid := by
  norm_num [Pams.default]

/-! ## C25 -/

/-- Zero perturbation gives zero partial pressure. -/
theorem C25_zero : pco2Of (0 : ℝ) = 0 := by
  have : ¬ ((zCo2Max : ℝ) < 0) := by norm_num [zCo2Max]
  rw [pco2Of, if_neg this]
  norm_num [pco2Poly]

theorem pco2Slope_pos (z : ℝ) : 0 < pco2Slope z := by
  unfold pco2Slope
  norm_num
  nlinarith [sq_nonneg (z + 150), sq_nonneg (z * z + 45 * z), sq_nonneg z, sq_nonneg (z + 100),
    sq_nonneg (z*z), sq_nonneg (z * (z + 50))]

theorem pco2Poly_deriv (z : ℝ) : HasDerivAt (pco2Poly : ℝ → ℝ) (pco2Slope z) z := by
  have h1 := (hasDerivAt_id z).const_mul (1.3021 : ℝ)
  have h2 := (hasDerivAt_pow 2 z).const_mul (3.7929e-3 : ℝ)
  have h3 := (hasDerivAt_pow 3 z).const_mul (9.1193e-6 : ℝ)
  have h4 := (hasDerivAt_pow 4 z).const_mul (1.488e-8 : ℝ)
  have h5 := (hasDerivAt_pow 5 z).const_mul (1.2425e-10 : ℝ)
  have h := ((((h1.add h2).add h3).add h4).add h5).congr_deriv (g' := pco2Slope z) (by
    simp only [pco2Slope]; norm_num; ring)
  refine h.congr_of_eventuallyEq (Filter.Eventually.of_forall fun x => ?_)
  simp only [pco2Poly, Pi.add_apply, id]; ring

/-- Specification of the slope: polynomial slope up to the cap, decaying like 1/z above it. -/
noncomputable def pco2Deriv (z : ℝ) : ℝ :=
  if z ≤ 293.5 then pco2Slope z else pco2Slope 293.5 * (293.5 / z)

theorem C25_slope_pos (z : ℝ) : 0 < pco2Deriv z := by
  unfold pco2Deriv
  split
  · exact pco2Slope_pos z
  · next h =>
    have : (0 : ℝ) < z := by push Not at h; refine lt_trans ?_ h; norm_num
    exact mul_pos (pco2Slope_pos _) (by positivity)

theorem pco2Log_deriv {z : ℝ} (hz : 0 < z) :
    HasDerivAt (fun z : ℝ => pco2Poly (zCo2Max : ℝ) + pco2Slope (zCo2Max : ℝ) * zCo2Max
      * MathFn.log (z / zCo2Max)) (pco2Slope 293.5 * (293.5 / z)) z := by
  have e : (zCo2Max : ℝ) = 293.5 := rfl
  simp only [mlog, e]
  have h1 : HasDerivAt (fun z : ℝ => z / 293.5) (1 / 293.5) z := (hasDerivAt_id z).div_const _
  have h2 := h1.log (by have : (0:ℝ) < 293.5 := by norm_num
                        positivity)
  have h3 := (h2.const_mul (pco2Slope (293.5 : ℝ) * 293.5)).const_add (pco2Poly (293.5 : ℝ))
  refine h3.congr_deriv ?_
  have : (0:ℝ) < 293.5 := by norm_num
  field_simp

/-- C25: continuously differentiable everywhere (value and slope match at the cap). -/
theorem C25_hasDerivAt (z : ℝ) : HasDerivAt (pco2Of : ℝ → ℝ) (pco2Deriv z) z := by
  have e : (zCo2Max : ℝ) = 293.5 := rfl
  rcases lt_trichotomy z 293.5 with h | h | h
  · have : pco2Deriv z = pco2Slope z := by rw [pco2Deriv, if_pos h.le]
    rw [this]
    refine (pco2Poly_deriv z).congr_of_eventuallyEq ?_
    filter_upwards [Iio_mem_nhds h] with x hx
    rw [pco2Of, if_neg (by rw [e]; exact not_lt.2 (le_of_lt hx))]
  · have hd : pco2Deriv z = pco2Slope z := by rw [pco2Deriv, if_pos h.le]
    have hz : (0 : ℝ) < z := by rw [h]; norm_num
    have hl : HasDerivWithinAt (pco2Of : ℝ → ℝ) (pco2Deriv z) (Set.Iic z) z := by
      rw [hd]
      refine (pco2Poly_deriv z).hasDerivWithinAt.congr (fun x hx => ?_) ?_
      · rw [pco2Of, if_neg (by rw [e, ← h]; exact not_lt.2 hx)]
      · rw [pco2Of, if_neg (by rw [e, ← h]; exact lt_irrefl _)]
    have hr : HasDerivWithinAt (pco2Of : ℝ → ℝ) (pco2Deriv z) (Set.Ici z) z := by
      have hd' : pco2Deriv z = pco2Slope 293.5 * (293.5 / z) := by
        rw [hd, h, div_self (by norm_num), mul_one]
      rw [hd']
      have hval : pco2Of z = pco2Poly (zCo2Max : ℝ) + pco2Slope (zCo2Max : ℝ) * zCo2Max
          * MathFn.log (z / zCo2Max) := by
        rw [pco2Of, if_neg (by rw [e, ← h]; exact lt_irrefl _), e, ← h, div_self hz.ne']
        simp
      refine (pco2Log_deriv hz).hasDerivWithinAt.congr (fun x hx => ?_) hval
      rcases eq_or_lt_of_le (show z ≤ x from hx) with h' | h'
      · rw [← h']; exact hval
      · rw [pco2Of, if_pos (by rw [e, ← h]; exact h')]
    have := hl.union hr
    rwa [Set.Iic_union_Ici, hasDerivWithinAt_univ] at this
  · have hz : (0 : ℝ) < z := lt_trans (by norm_num) h
    have : pco2Deriv z = pco2Slope 293.5 * (293.5 / z) := by rw [pco2Deriv, if_neg (not_le.2 h)]
    rw [this]
    refine (pco2Log_deriv hz).congr_of_eventuallyEq ?_
    filter_upwards [Ioi_mem_nhds h] with x hx
    rw [pco2Of, if_pos (by rw [e]; exact hx)]

/-- C25: the slope is continuous, so the relation is C1. -/
theorem C25_slope_continuous : Continuous pco2Deriv := by
  have h : pco2Deriv = fun z => if z ≤ 293.5 then pco2Slope z
      else pco2Slope 293.5 * (293.5 / max z 293.5) := by
    funext z
    unfold pco2Deriv
    split_ifs with h
    · rfl
    · rw [max_eq_left (not_le.1 h).le]
  rw [h]
  refine Continuous.if_le ?_ ?_ continuous_id continuous_const ?_
  · unfold pco2Slope; fun_prop
  · refine continuous_const.mul (continuous_const.div (by fun_prop) (fun z => ?_))
    have : (0 : ℝ) < max z 293.5 := lt_max_of_lt_right (by norm_num)
    exact this.ne'
  · intro z hz
    rw [hz, max_self, div_self (by norm_num), mul_one]

/-- C25: strictly increasing on all of ℝ. -/
theorem C25_strictMono : StrictMono (pco2Of : ℝ → ℝ) :=
  strictMono_of_hasDerivAt_pos C25_hasDerivAt C25_slope_pos

end Verif.Props
