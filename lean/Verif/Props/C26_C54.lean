import Verif.Lemmas.RFuns

/-!
# C26, C54: impulse response functions and their input check (exact arithmetic)
-/

namespace Verif.Props
open Verif.Py Verif.Model Filter Topology MeasureTheory Set

/-! ## C54 input check -/

/-- C54: the check accepts exactly matching lengths without negative numbers, returning its input,
and otherwise raises `ValueError`. -/
theorem C54_accepts_iff (coef tim : List ℝ) (forRs : Bool) :
    checkArrayConsistency coef tim forRs =
      if coef.length = tim.length + (if forRs then 1 else 0) ∧ (∀ c ∈ coef, 0 ≤ c) ∧ (∀ t ∈ tim, 0 ≤ t)
      then .ok (coef, tim) else .error .valueError := by
  have h0 : (0.0 : ℝ) = 0 := by norm_num
  unfold checkArrayConsistency
  by_cases hl : coef.length = tim.length + (if forRs then 1 else 0)
  · simp only [hl, ne_eq, not_true_eq_false, if_false, true_and, h0]
    have key : ((coef.any fun x => decide (x < 0)) || tim.any fun x => decide (x < 0)) = true ↔
        ¬ ((∀ c ∈ coef, 0 ≤ c) ∧ ∀ t ∈ tim, 0 ≤ t) := by
      simp only [Bool.or_eq_true, List.any_eq_true, decide_eq_true_eq, not_and_or, not_forall,
        not_le, exists_prop]
    by_cases hb : (∀ c ∈ coef, 0 ≤ c) ∧ ∀ t ∈ tim, 0 ≤ t
    · rw [if_pos hb, if_neg (fun h => key.1 h hb)]
    · rw [if_neg hb, if_pos (key.2 hb)]
  · simp [hl]

/-- C54: the documentation promises positive timescales; as coded a zero timescale is accepted. -/
theorem C54_zero_timescale_accepted :
    checkArrayConsistency [(1 : ℝ)] [0] false = .ok ([1], [0]) := by
  rw [C54_accepts_iff]; simp

/-! ## C26 custom ocean response -/

/-- Specification: input the checker accepts for the ocean response, with positive timescales and a
positive coefficient sum. -/
structure GoodRs (coef tim : List ℝ) : Prop where
  len : coef.length = tim.length + 1
  coef_nonneg : ∀ c ∈ coef, 0 ≤ c
  tim_pos : ∀ t ∈ tim, 0 < t
  sum_pos : 0 < coef.sum

/-- The checker accepts every `GoodRs` input. -/
theorem C26_good_accepted {coef tim : List ℝ} (h : GoodRs coef tim) :
    checkArrayConsistency coef tim true = .ok (coef, tim) := by
  rw [C54_accepts_iff, if_pos ⟨h.len, h.coef_nonneg, fun t ht => (h.tim_pos t ht).le⟩]

/-- The example values of the docstring (rfuns.py:260-264). -/
example : GoodRs [0.1, 0.6, 0.15, 0.15] [0.8, 7, 80] :=
  ⟨rfl, by simp; norm_num, by simp; norm_num, by norm_num⟩

theorem C26_rs_start {coef tim : List ℝ} (h : GoodRs coef tim) : rs2At coef tim 0 = 1 := by
  obtain ⟨hl, hc, ht, hs⟩ := h
  cases coef with
  | nil => simp at hl
  | cons c0 cs =>
    rw [rs2At_cons]
    simp only [neg_zero, zero_div, Real.exp_zero, mul_one]
    simp only [List.sum_cons] at hs
    rw [zsum_fst (by simpa using hl)]
    field_simp

/-- The response starts at exactly 1 in code units (sub-step 0, any `idtm`). -/
theorem C26_rs_substep_zero {coef tim : List ℝ} (h : GoodRs coef tim) (idtm : ℕ) :
    rsFunction2 coef tim 0 idtm = 1 := by
  have : (ofInt ((0 : ℕ) : ℤ) / ofInt (idtm : ℤ) : ℝ) = 0 := by simp
  rw [rsFunction2, this]
  exact C26_rs_start h

theorem C26_rs_antitone {coef tim : List ℝ} (h : GoodRs coef tim) : Antitone (rs2At coef tim) := by
  obtain ⟨hl, hc, ht, hs⟩ := h
  cases coef with
  | nil => simp at hl
  | cons c0 cs =>
    intro a b hab
    rw [rs2At_cons, rs2At_cons]
    simp only [List.sum_cons] at hs
    have : (List.zipWith (fun c τ => c / (c0 + cs.sum) * Real.exp (-b / τ)) cs tim).sum ≤
        (List.zipWith (fun c τ => c / (c0 + cs.sum) * Real.exp (-a / τ)) cs tim).sum := by
      apply zsum_le
      intro c hc' t ht'
      have h1 : 0 ≤ c / (c0 + cs.sum) := div_nonneg (hc c (by simp [hc'])) hs.le
      exact mul_le_mul_of_nonneg_left (exp_decay_antitone (ht t ht') hab) h1
    linarith

/-- The response stays within `[c0/sum, 1] ⊆ [0, 1]` for all non-negative times. -/
theorem C26_rs_bounds {coef tim : List ℝ} (h : GoodRs coef tim) {t : ℝ} (ht0 : 0 ≤ t) :
    0 ≤ coef.headD 0 / coef.sum ∧ coef.headD 0 / coef.sum ≤ rs2At coef tim t ∧
      rs2At coef tim t ≤ 1 := by
  have h1 := C26_rs_antitone h ht0
  rw [C26_rs_start h] at h1
  obtain ⟨hl, hc, ht, hs⟩ := h
  cases coef with
  | nil => simp at hl
  | cons c0 cs =>
    have hs' := hs
    simp only [List.sum_cons] at hs'
    refine ⟨div_nonneg (hc c0 (by simp)) hs.le, ?_, h1⟩
    rw [rs2At_cons]
    have := zsum_nonneg (cs := cs) (ts := tim)
      (g := fun c τ => c / (c0 + cs.sum) * Real.exp (-t / τ))
      (fun c hc' τ _ => mul_nonneg (div_nonneg (hc c (by simp [hc'])) hs'.le) (Real.exp_pos _).le)
    simp only [List.headD_cons, List.sum_cons]
    linarith

/-- The response tends to its constant share. -/
theorem C26_rs_limit {coef tim : List ℝ} (h : GoodRs coef tim) :
    Tendsto (rs2At coef tim) atTop (𝓝 (coef.headD 0 / coef.sum)) := by
  obtain ⟨hl, hc, ht, hs⟩ := h
  cases coef with
  | nil => simp at hl
  | cons c0 cs =>
    simp only [List.headD_cons, List.sum_cons]
    have h1 := zsum_tendsto_zero (cs := cs) (ts := tim) (l := atTop)
      (g := fun x c τ => c / (c0 + cs.sum) * Real.exp (-x / τ))
      (fun c _ τ hτ => by simpa using (exp_decay_tendsto (ht τ hτ)).const_mul (c / (c0 + cs.sum)))
    have := h1.const_add (c0 / (c0 + cs.sum))
    rw [add_zero] at this
    exact this.congr (fun x => (rs2At_cons c0 cs tim x).symm)

/-! ## C26 custom biosphere response -/

structure GoodRb (coef tim : List ℝ) : Prop where
  len : coef.length = tim.length
  coef_nonneg : ∀ c ∈ coef, 0 ≤ c
  tim_pos : ∀ t ∈ tim, 0 < t
  sum_pos : 0 < coef.sum

/-- The example values of the docstring (rfuns.py:169-172). -/
example : GoodRb [0.5, 0.25, 0.25] [2.5, 10, 60] :=
  ⟨rfl, by simp; norm_num, by simp; norm_num, by norm_num⟩

theorem C26_rb_start (coef tim : List ℝ) : rb2At coef tim 0 = 0 := by
  rw [rb2At_eq]
  simp only [zero_mul]
  induction coef generalizing tim with
  | nil => simp
  | cons c cs ih =>
    cases tim with
    | nil => simp
    | cons t tim => simp [ih]

theorem C26_rb_nonneg {coef tim : List ℝ} (h : GoodRb coef tim) {t : ℝ} (ht0 : 0 ≤ t) :
    0 ≤ rb2At coef tim t := by
  obtain ⟨hl, hc, ht, hs⟩ := h
  rw [rb2At_eq]
  apply zsum_nonneg
  intro c hc' τ hτ
  have := hc c hc'
  have := ht τ hτ
  positivity

/-- The response integrates to 1 over time in years, i.e. to `idtm` over sub-steps. -/
theorem C26_rb_integral {coef tim : List ℝ} (h : GoodRb coef tim) :
    IntegrableOn (rb2At coef tim) (Ioi 0) ∧ ∫ t in Ioi (0 : ℝ), rb2At coef tim t = 1 := by
  obtain ⟨hl, hc, ht, hs⟩ := h
  have h := zsum_integral (cs := coef) (ts := tim)
    (g := fun t c τ => t * ((c / coef.sum) / (τ * τ)) * Real.exp (-t / τ)) (v := fun c => c / coef.sum)
    hl (fun c _ τ hτ => pool_integrable (ht τ hτ) _) (fun c _ τ hτ => pool_integral (ht τ hτ) _)
  have hfun : rb2At coef tim = fun t =>
      (List.zipWith (fun c τ => t * ((c / coef.sum) / (τ * τ)) * Real.exp (-t / τ)) coef tim).sum := by
    funext t; exact rb2At_eq coef tim t
  rw [hfun]
  refine ⟨h.1, ?_⟩
  rw [h.2]
  have : (coef.map (fun c => c / coef.sum)).sum = coef.sum / coef.sum := by
    have aux : ∀ (l : List ℝ) (s : ℝ), (l.map (fun c => c / s)).sum = l.sum / s := by
      intro l s
      induction l with
      | nil => simp
      | cons c cs ih => simp only [List.map_cons, List.sum_cons, ih]; ring
    exact aux _ _
  rw [this, div_self hs.ne']

/-! ## C26 built-in responses -/

theorem C26_builtin_rs_start : rsAt (0 : ℝ) = 1 := by
  have : (0 : ℝ) < 2.0 := by norm_num
  simp only [rsAt, this, if_true, rsShort, mexp, neg_zero, zero_div, Real.exp_zero]
  norm_num

theorem rsShort_strictAnti : StrictAnti (rsShort : ℝ → ℝ) := by
  intro a b h
  have h1 := exp_decay_strictAnti (τ := 0.034569) (by norm_num) h
  have h2 := exp_decay_strictAnti (τ := 0.26936) (by norm_num) h
  have h3 := exp_decay_strictAnti (τ := 0.96083) (by norm_num) h
  have h4 := exp_decay_strictAnti (τ := 4.9792) (by norm_num) h
  simp only [rsShort, mexp]
  simp only at h1 h2 h3 h4
  linarith

theorem rsLong_strictAnti : StrictAnti (rsLong : ℝ → ℝ) := by
  intro a b h
  have h1 := exp_decay_strictAnti (τ := 1.2679) (by norm_num) h
  have h2 := exp_decay_strictAnti (τ := 5.2528) (by norm_num) h
  have h3 := exp_decay_strictAnti (τ := 18.601) (by norm_num) h
  have h4 := exp_decay_strictAnti (τ := 68.736) (by norm_num) h
  have h5 := exp_decay_strictAnti (τ := 232.3) (by norm_num) h
  simp only [rsLong, mexp]
  simp only at h1 h2 h3 h4 h5
  linarith

/-- The two branches meet with a (tiny) downward step at two years. -/
theorem rs_join : rsLong (2 : ℝ) < rsShort 2 := by
  have e : ∀ (x : ℝ) (n : ℕ), Real.exp (-(n * x)) = Real.exp (-x) ^ n := by
    intro x n; rw [← Real.exp_nat_mul]; congr 1; ring
  have pw : ∀ {a b : ℝ} (n : ℕ), 0 ≤ a → a ≤ b → a ^ n ≤ b ^ n := fun n h0 h => pow_le_pow_left₀ h0 h n
  -- lower bounds
  have a2 : (0.00059 : ℝ) ≤ Real.exp (-2 / 0.26936) := by
    rw [show (-2 / 0.26936 : ℝ) = -((16 : ℕ) * (2 / 0.26936 / 16)) by norm_num, e]
    refine le_trans ?_ (pw 16 (a := 0.6287) (by norm_num) ?_)
    · norm_num
    · refine le_trans ?_ (exp_neg_bounds (y := 2 / 0.26936 / 16) (by norm_num) (by norm_num)).1
      norm_num
  have a3 : (0.12473 : ℝ) ≤ Real.exp (-2 / 0.96083) := by
    rw [show (-2 / 0.96083 : ℝ) = -((4 : ℕ) * (2 / 0.96083 / 4)) by norm_num, e]
    refine le_trans ?_ (pw 4 (a := 0.59429) (by norm_num) ?_)
    · norm_num
    · refine le_trans ?_ (exp_neg_bounds (y := 2 / 0.96083 / 4) (by norm_num) (by norm_num)).1
      norm_num
  have a4 : (0.669198 : ℝ) ≤ Real.exp (-2 / 4.9792) := by
    rw [show (-2 / 4.9792 : ℝ) = -(2 / 4.9792) by norm_num]
    refine le_trans ?_ (exp_neg_bounds (y := 2 / 4.9792) (by norm_num) (by norm_num)).1
    norm_num
  have a1 := Real.exp_pos (-2 / 0.034569)
  -- upper bounds
  have b1 : Real.exp (-2 / 1.2679) ≤ 0.206517 := by
    rw [show (-2 / 1.2679 : ℝ) = -((4 : ℕ) * (2 / 1.2679 / 4)) by norm_num, e]
    refine le_trans (pw 4 (b := 0.674119) (Real.exp_pos _).le ?_) ?_
    · refine le_trans (exp_neg_bounds (y := 2 / 1.2679 / 4) (by norm_num) (by norm_num)).2 ?_
      norm_num
    · norm_num
  have b2 : Real.exp (-2 / 5.2528) ≤ 0.68335 := by
    rw [show (-2 / 5.2528 : ℝ) = -(2 / 5.2528) by norm_num]
    refine le_trans (exp_neg_bounds (y := 2 / 5.2528) (by norm_num) (by norm_num)).2 ?_
    norm_num
  have b3 : Real.exp (-2 / 18.601) ≤ 0.89806 := by
    rw [show (-2 / 18.601 : ℝ) = -(2 / 18.601) by norm_num]
    refine le_trans (exp_neg_bounds (y := 2 / 18.601) (by norm_num) (by norm_num)).2 ?_
    norm_num
  have b4 : Real.exp (-2 / 68.736) ≤ 0.971323 := by
    rw [show (-2 / 68.736 : ℝ) = -(2 / 68.736) by norm_num]
    refine le_trans (exp_neg_bounds (y := 2 / 68.736) (by norm_num) (by norm_num)).2 ?_
    norm_num
  have b5 : Real.exp (-2 / 232.3) ≤ 0.991428 := by
    rw [show (-2 / 232.3 : ℝ) = -(2 / 232.3) by norm_num]
    refine le_trans (exp_neg_bounds (y := 2 / 232.3) (by norm_num) (by norm_num)).2 ?_
    norm_num
  simp only [rsLong, rsShort, mexp]
  norm_num at a1 a2 a3 a4 b1 b2 b3 b4 b5 ⊢
  linarith

/-- The built-in ocean response is strictly decreasing on all times. -/
theorem C26_builtin_rs_strictAnti : StrictAnti (rsAt : ℝ → ℝ) := by
  intro a b h
  have e2 : (2.0 : ℝ) = 2 := by norm_num
  simp only [rsAt, e2]
  by_cases hb : b < 2
  · rw [if_pos hb, if_pos (h.trans hb)]; exact rsShort_strictAnti h
  · push Not at hb
    rw [if_neg (not_lt.2 hb)]
    by_cases ha : a < 2
    · rw [if_pos ha]
      exact lt_of_le_of_lt (rsLong_strictAnti.antitone hb) (rs_join.trans (rsShort_strictAnti ha))
    · rw [if_neg ha]; exact rsLong_strictAnti h

/-- So it lies in `(0, 1]` for all non-negative times. -/
theorem C26_builtin_rs_bounds {t : ℝ} (ht : 0 ≤ t) : 0 < rsAt t ∧ rsAt t ≤ 1 := by
  refine ⟨?_, C26_builtin_rs_start ▸ C26_builtin_rs_strictAnti.antitone ht⟩
  unfold rsAt rsShort rsLong
  split <;> simp only [mexp] <;> positivity

/-- Finding: the built-in biosphere response is negative at time 0 (its coefficients do not cancel
exactly). -/
theorem C26_builtin_rb_start : rbAt (0 : ℝ) = -0.0000036 := by
  simp only [rbAt, mexp, neg_zero, zero_div, mul_zero, Real.exp_zero]
  norm_num

/-- It is positive from `t = 1e-4` years on, hence at every sub-step except the first for up to
10000 sub-steps per year. -/
theorem C26_builtin_rb_pos {t : ℝ} (ht : 1 / 10000 ≤ t) : 0 < rbAt t := by
  have ht0 : 0 < t := lt_of_lt_of_le (by norm_num) ht
  have h1 : Real.exp (-0.35 * t) ≤ Real.exp (-t / 20.0) := Real.exp_le_exp.2 (by norm_num; linarith)
  have h2 : Real.exp (-0.35 * t) ≤ Real.exp (-t / 100.0) := Real.exp_le_exp.2 (by norm_num; linarith)
  have h3 : Real.exp (-55.0 * t / 120.0) = Real.exp (-0.35 * t) * Real.exp (-(13 * t / 120)) := by
    rw [← Real.exp_add]; congr 1; norm_num; ring
  have h4 : Real.exp (-(13 * t / 120)) < 0.7184564 / 0.71846 := by
    rw [Real.exp_neg, inv_lt_comm₀ (Real.exp_pos _) (by norm_num)]
    have := Real.add_one_le_exp (13 * t / 120)
    refine lt_of_lt_of_le ?_ this
    norm_num
    linarith
  have h5 := Real.exp_pos (-0.35 * t)
  have h6 : Real.exp (-55.0 * t / 120.0) < Real.exp (-0.35 * t) * (0.7184564 / 0.71846) := by
    rw [h3]; exact mul_lt_mul_of_pos_left h4 h5
  simp only [rbAt, mexp]
  linarith

end Verif.Props
