import Verif.Spec.Forcing
import Mathlib.Analysis.SpecialFunctions.Log.Deriv
import Mathlib.Analysis.Complex.ExponentialBounds

/-!
# C60 — sign and monotonicity of the forcing of the three main gases

About the documented functions (`Verif/Spec/Forcing.lean`); by C59 they are what a run reports. The CO2
formula is a fit that only holds near the reference concentration: beyond it the claim fails
(`C60_co2_sign_false`, `C60_co2_increasing_false`).
-/

namespace Verif.Props
open Verif.Spec

/-- C60: no change since the start year, no forcing. -/
theorem C60_zero (c n m c' n' m' : ℝ) (hc : 0 < c) : co2Forcing c c n n' = 0 ∧ n2oForcing n n c c' m m' = 0 ∧
    ch4Forcing m m n n' = 0 := by
  refine ⟨?_, ?_, ?_⟩
  · unfold co2Forcing; rw [div_self hc.ne', Real.log_one, mul_zero]
  · unfold n2oForcing; rw [sub_self, mul_zero]
  · unfold ch4Forcing; rw [sub_self, mul_zero]

/-- The CO2 bracket by distance `x` from the start year and mean N2O concentration. -/
theorem co2_bracket {x N : ℝ} (hx0 : 0 ≤ x) (hx : x ≤ 3000) (hN : N ≤ 20000) :
    0 < 5.36 + 0.00072 * x - 0.00000024 * x ^ 2 - 0.00021 * N := by nlinarith

/-- C60, CO2 (partial: within 3000 ppm of the start-year concentration and for a mean N2O concentration
up to 20000 ppb): the forcing is positive exactly if the concentration is above that of the start year,
and negative exactly if it is below. -/
theorem C60_co2_sign_partial {c c0 n n0 : ℝ} (hc : 0 < c) (hc0 : 0 < c0) (hd : |c - c0| ≤ 3000)
    (hn : (n + n0) / 2 ≤ 20000) :
    (0 < co2Forcing c c0 n n0 ↔ c0 < c) ∧ (co2Forcing c c0 n n0 < 0 ↔ c < c0) := by
  have hb := co2_bracket (abs_nonneg (c - c0)) hd hn
  rw [sq_abs] at hb
  unfold co2Forcing
  rw [mul_pos_iff_of_pos_left hb, mul_neg_iff]
  constructor
  · rw [Real.log_pos_iff (by positivity), one_lt_div hc0]
  · constructor
    · rintro (⟨-, h⟩ | ⟨h, -⟩)
      · by_contra hle
        have : 0 ≤ Real.log (c / c0) := Real.log_nonneg ((one_le_div hc0).2 (not_lt.1 hle))
        linarith
      · linarith
    · intro h
      exact Or.inl ⟨hb, Real.log_neg (by positivity) ((div_lt_one hc0).2 h)⟩

/-- C60, CO2 (partial: within 1500 ppm of the start-year concentration): more CO2, more forcing. -/
theorem C60_co2_increasing_partial {c c' c0 n n0 : ℝ} (hc : 0 < c) (hc0 : 0 < c0) (hlt : c < c')
    (hd : |c - c0| ≤ 1500) (hd' : |c' - c0| ≤ 1500) (hn : (n + n0) / 2 ≤ 20000) :
    co2Forcing c c0 n n0 < co2Forcing c' c0 n n0 := by
  have hc' : 0 < c' := hc.trans hlt
  have hb := co2_bracket (abs_nonneg (c - c0)) (hd.trans (by norm_num)) hn
  have hb' := co2_bracket (abs_nonneg (c' - c0)) (hd'.trans (by norm_num)) hn
  have hlog : Real.log (c / c0) < Real.log (c' / c0) :=
    Real.log_lt_log (by positivity) (by gcongr)
  unfold co2Forcing
  rw [← sq_abs (c - c0), ← sq_abs (c' - c0)]
  generalize hB : 5.36 + 0.00072 * |c - c0| - 0.00000024 * |c - c0| ^ 2 - 0.00021 * ((n + n0) / 2) = B at *
  generalize hB' : 5.36 + 0.00072 * |c' - c0| - 0.00000024 * |c' - c0| ^ 2 - 0.00021 * ((n + n0) / 2) = B' at *
  have hmono : |c - c0| ≤ |c' - c0| → B ≤ B' := by
    intro h
    rw [← hB, ← hB']
    nlinarith [abs_nonneg (c - c0)]
  have hmono' : |c' - c0| ≤ |c - c0| → B' ≤ B := by
    intro h
    rw [← hB, ← hB']
    nlinarith [abs_nonneg (c' - c0)]
  rcases le_or_gt c0 c with h | h
  · have h1 : B ≤ B' := hmono (by rw [abs_of_nonneg (by linarith), abs_of_nonneg (by linarith)]; linarith)
    have h2 : 0 ≤ Real.log (c / c0) := Real.log_nonneg ((one_le_div hc0).2 h)
    nlinarith
  · have h2 : Real.log (c / c0) < 0 := Real.log_neg (by positivity) ((div_lt_one hc0).2 h)
    rcases le_or_gt c' c0 with h' | h'
    · have h1 : B' ≤ B := hmono' (by rw [abs_of_nonpos (by linarith), abs_of_nonpos (by linarith)]; linarith)
      have h3 : Real.log (c' / c0) ≤ 0 := Real.log_nonpos (by positivity) ((div_le_one hc0).2 h')
      nlinarith
    · have h3 : 0 < Real.log (c' / c0) := Real.log_pos ((one_lt_div hc0).2 h')
      nlinarith

/-- C60, N2O: sign and growth, as long as the overlap with CO2 and CH4 does not use up the formula's
constant (`0.117`), e.g. below 8000 ppm CO2 and 10000 ppb CH4 on average. -/
theorem C60_n2o_increasing {n n' n0 c c0 m m0 : ℝ} (hn : 0 ≤ n) (hn0 : 0 ≤ n0) (hlt : n < n')
    (hov : 0.000008 * ((c + c0) / 2) + 0.0000049 * ((m + m0) / 2) ≤ 0.117) :
    n2oForcing n n0 c c0 m m0 < n2oForcing n' n0 c c0 m m0 := by
  unfold n2oForcing
  have hs := Real.sqrt_lt_sqrt hn hlt
  have h1 := Real.sqrt_nonneg n
  have h3 := Real.sqrt_nonneg n0
  have e1 := Real.sq_sqrt hn
  have e2 := Real.sq_sqrt (hn.trans hlt.le)
  have e3 := Real.sq_sqrt hn0
  generalize Real.sqrt n = s at *
  generalize Real.sqrt n' = s' at *
  generalize Real.sqrt n0 = t at *
  rw [← e1, ← e2, ← e3]
  obtain ⟨A, hA⟩ : ∃ A, A = 0.117 - 0.000008 * ((c + c0) / 2) - 0.0000049 * ((m + m0) / 2) := ⟨_, rfl⟩
  have hA0 : 0 ≤ A := by rw [hA]; linarith
  have key : (0.117 - 0.000008 * ((c + c0) / 2) + 0.0000042 * ((s' ^ 2 + t ^ 2) / 2) - 0.0000049 * ((m + m0) / 2)) * (s' - t)
      - (0.117 - 0.000008 * ((c + c0) / 2) + 0.0000042 * ((s ^ 2 + t ^ 2) / 2) - 0.0000049 * ((m + m0) / 2)) * (s - t)
      = (s' - s) * (A + 0.0000021 * (s ^ 2 + s * s' + s' ^ 2 + t ^ 2 - t * (s + s'))) := by
    rw [hA]; ring
  have hq : 0 < s ^ 2 + s * s' + s' ^ 2 + t ^ 2 - t * (s + s') := by
    nlinarith [sq_nonneg (t - (s + s') / 2), mul_nonneg h1 (h1.trans hs.le), sq_nonneg s, sq_nonneg s']
  have : 0 < (s' - s) * (A + 0.0000021 * (s ^ 2 + s * s' + s' ^ 2 + t ^ 2 - t * (s + s'))) := by
    apply mul_pos (by linarith)
    have : (0 : ℝ) < 0.0000021 * (s ^ 2 + s * s' + s' ^ 2 + t ^ 2 - t * (s + s')) := by positivity
    linarith
  linarith

/-- C60, N2O: the sign of the forcing is that of the change since the start year. -/
theorem C60_n2o_sign {n n0 c c0 m m0 : ℝ} (hn : 0 ≤ n) (hn0 : 0 ≤ n0)
    (hov : 0.000008 * ((c + c0) / 2) + 0.0000049 * ((m + m0) / 2) ≤ 0.117) :
    (0 < n2oForcing n n0 c c0 m m0 ↔ n0 < n) ∧ (n2oForcing n n0 c c0 m m0 < 0 ↔ n < n0) := by
  have h0 : n2oForcing n0 n0 c c0 m m0 = 0 := by unfold n2oForcing; rw [sub_self, mul_zero]
  rcases lt_trichotomy n n0 with h | h | h
  · have := C60_n2o_increasing (m := m) hn hn0 h hov
    rw [h0] at this
    exact ⟨⟨fun x => by linarith, fun x => by linarith⟩, ⟨fun _ => h, fun _ => this⟩⟩
  · subst h; rw [h0]; simp
  · have := C60_n2o_increasing (m := m) hn0 hn0 h hov
    rw [h0] at this
    exact ⟨⟨fun _ => h, fun _ => this⟩, ⟨fun x => by linarith, fun x => by linarith⟩⟩

/-- C60, CH4: more methane, more forcing, for methane concentrations up to `M` with
`1.95e-6 M + 8.2e-6 N ≤ 0.043` (`N` the mean N2O concentration), e.g. 17000 ppb CH4 and 1000 ppb N2O. -/
theorem C60_ch4_increasing {m m' m0 n n0 M : ℝ} (hm : 0 ≤ m) (hm0 : 0 ≤ m0) (hlt : m < m') (hM' : m' ≤ M)
    (hM0 : m0 ≤ M) (hov : 0.00000195 * M + 0.0000082 * ((n + n0) / 2) ≤ 0.043) :
    ch4Forcing m m0 n n0 < ch4Forcing m' m0 n n0 := by
  unfold ch4Forcing
  have hs := Real.sqrt_lt_sqrt hm hlt
  have h1 := Real.sqrt_nonneg m
  have h3 := Real.sqrt_nonneg m0
  have e1 := Real.sq_sqrt hm
  have e2 := Real.sq_sqrt (hm.trans hlt.le)
  have e3 := Real.sq_sqrt hm0
  generalize Real.sqrt m = s at *
  generalize Real.sqrt m' = s' at *
  generalize Real.sqrt m0 = t at *
  rw [← e2] at hM'
  rw [← e3] at hM0
  rw [← e1, ← e2, ← e3]
  have key : (0.043 - 0.0000013 * ((s' ^ 2 + t ^ 2) / 2) - 0.0000082 * ((n + n0) / 2)) * (s' - t)
      - (0.043 - 0.0000013 * ((s ^ 2 + t ^ 2) / 2) - 0.0000082 * ((n + n0) / 2)) * (s - t)
      = (s' - s) * ((0.043 - 0.0000082 * ((n + n0) / 2))
        - 0.00000065 * (s ^ 2 + s * s' + s' ^ 2 + t ^ 2 - t * (s + s'))) := by ring
  have hq : s ^ 2 + s * s' + s' ^ 2 + t ^ 2 - t * (s + s') < 3 * M := by
    rcases le_or_gt t (s + s') with h | h
    · nlinarith [mul_nonneg h3 (sub_nonneg.2 h), mul_nonneg h1 (sub_nonneg.2 hs.le)]
    · nlinarith [mul_nonneg h1 (sub_nonneg.2 hs.le), mul_nonneg h1 h3]
  have : 0 < (s' - s) * ((0.043 - 0.0000082 * ((n + n0) / 2))
        - 0.00000065 * (s ^ 2 + s * s' + s' ^ 2 + t ^ 2 - t * (s + s'))) := by
    apply mul_pos (by linarith)
    linarith
  linarith

/-- C60, CH4: the sign of the forcing is that of the change since the start year. -/
theorem C60_ch4_sign {m m0 n n0 M : ℝ} (hm : 0 ≤ m) (hm0 : 0 ≤ m0) (hM : m ≤ M) (hM0 : m0 ≤ M)
    (hov : 0.00000195 * M + 0.0000082 * ((n + n0) / 2) ≤ 0.043) :
    (0 < ch4Forcing m m0 n n0 ↔ m0 < m) ∧ (ch4Forcing m m0 n n0 < 0 ↔ m < m0) := by
  have h0 : ch4Forcing m0 m0 n n0 = 0 := by unfold ch4Forcing; rw [sub_self, mul_zero]
  rcases lt_trichotomy m m0 with h | h | h
  · have := C60_ch4_increasing hm hm0 h hM0 hM0 hov
    rw [h0] at this
    exact ⟨⟨fun x => by linarith, fun x => by linarith⟩, ⟨fun _ => h, fun _ => this⟩⟩
  · subst h; rw [h0]; simp
  · have := C60_ch4_increasing hm0 hm0 h hM hM0 hov
    rw [h0] at this
    exact ⟨⟨fun _ => h, fun _ => this⟩, ⟨fun x => by linarith, fun x => by linarith⟩⟩

/-- C60 without the range restriction is false: at 8000 ppm, from 278 ppm, the CO2 forcing is
negative. -/
theorem C60_co2_sign_false : ¬ ∀ c c0 n n0 : ℝ, 0 < c0 → c0 < c → 0 ≤ n → 0 ≤ n0 → 0 < co2Forcing c c0 n n0 := by
  intro h
  have := h 8000 278 270 270 (by norm_num) (by norm_num) (by norm_num) (by norm_num)
  unfold co2Forcing at this
  have hl : 0 < Real.log (8000 / 278) := Real.log_pos (by norm_num)
  rw [abs_of_pos (by norm_num)] at this
  nlinarith

/-- Nor does the CO2 forcing always grow with the concentration: 8000 ppm give less than 4000 ppm. -/
theorem C60_co2_increasing_false : ¬ ∀ c c' c0 n n0 : ℝ, 0 < c0 → c0 < c → c < c' → 0 ≤ n → 0 ≤ n0 →
    co2Forcing c c0 n n0 < co2Forcing c' c0 n n0 := by
  intro h
  have := h 4000 8000 278 270 270 (by norm_num) (by norm_num) (by norm_num) (by norm_num) (by norm_num)
  unfold co2Forcing at this
  have hl : 0 < Real.log (8000 / 278) := Real.log_pos (by norm_num)
  have hl' : 0 < Real.log (4000 / 278) := Real.log_pos (by norm_num)
  rw [abs_of_pos (by norm_num), abs_of_pos (by norm_num)] at this
  nlinarith

/-- Present-day concentrations satisfy the hypotheses above. -/
example : 0 < co2Forcing 420 278 335 270 ∧ 0 < n2oForcing 335 270 420 278 1900 722 ∧
    0 < ch4Forcing 1900 722 335 270 := by
  refine ⟨(C60_co2_sign_partial (by norm_num) (by norm_num) ?_ (by norm_num)).1.2 (by norm_num),
    (C60_n2o_sign (by norm_num) (by norm_num) (by norm_num)).1.2 (by norm_num),
    (C60_ch4_sign (M := 2000) (by norm_num) (by norm_num) (by norm_num) (by norm_num) (by norm_num)).1.2 (by norm_num)⟩
  rw [abs_of_pos] <;> norm_num

end Verif.Props
