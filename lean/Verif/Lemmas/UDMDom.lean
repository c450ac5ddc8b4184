import Verif.Lemmas.UDMRun

/-!
# The upwelling-diffusion model over the reals: diagonal dominance and signs
-/

namespace Verif.Lemmas.UDM
open Verif.Py Verif.Model.UDM Verif.Spec.Tridiag Verif.Lemmas Verif.Spec.Diffusion
open Finset (range)

theorem dt_eq (p : Pams ℝ) : dt p = year / p.ldtime := by
  unfold dt year; rw [mofInt]; norm_num; ring

theorem dt_pos {p : Pams ℝ} {r : ℝ} (hp : Phys p r) : 0 < dt p := by
  rw [dt_eq]
  have : (0 : ℝ) < p.ldtime := by have := hp.ldtime; exact_mod_cast (by omega : 0 < p.ldtime)
  unfold year; positivity

theorem c1_eq : (c1 : ℝ) = capacity := by unfold c1 capacity; norm_num

theorem wcfac_eq (p : Pams ℝ) (t : ℝ) : wcfac p t = upwelling p t / p.ldtime := by
  unfold wcfac upwelling secYear
  simp only [misEq, dt_eq, sci0]
  have h : year ≠ 0 := by unfold year; norm_num
  have e : (86400.0 * 365.0 : ℝ) = year := by unfold year; norm_num
  rw [e]
  split
  · field_simp
  · have : (1.0 : ℝ) = 1 := sci1
    rw [this]; field_simp

theorem rakapafac_nonneg {p : Pams ℝ} {r w : ℝ} (hp : Phys p r) (ho : Ordered p w) :
    0 ≤ rakapafac p := by
  have h0 : 0 ≤ w / year := div_nonneg ho.upward (by unfold year; norm_num)
  have h1 := ho.diffusive
  have : 0 ≤ rakapa p := by
    have e : (1.0e-4 : ℝ) = 1e-4 := by norm_num
    unfold rakapa; rw [e]; linarith
  have := (dt_pos hp).le
  unfold rakapafac; rw [sci2]; positivity

theorem w_le {p : Pams ℝ} {r w : ℝ} (hp : Phys p r) (ho : Ordered p w) :
    w / p.ldtime ≤ rakapafac p / 100 := by
  have h1 := ho.diffusive
  have hd := dt_pos hp
  have hy : year ≠ 0 := by unfold year; norm_num
  have e : w / p.ldtime = w / year * dt p := by
    rw [dt_eq]; field_simp
  have e' : (1.0e-4 : ℝ) = 1e-4 := by norm_num
  rw [e]
  unfold rakapafac rakapa
  rw [sci2, e']
  have := mul_le_mul_of_nonneg_right h1 hd.le
  linarith

section
variable {m : Model ℝ} (hb : Base m) (hp : Phys m.p m.rlamda)
include hb hp

theorem gamFro_nonneg (b : Bool) : 0 ≤ gamFroFactor m b := by
  have h0 := blm_nonneg hb hp
  have h1 := gamn_gt hb hp
  have h2 := gams_gt hb hp
  have hD := denom_pos hb hp
  have hl := div_pos hp.rlamda hp.rlamdo
  have hd := (dt_pos hp).le
  have hc := c1_pos.le
  have hm := hp.mixed.le
  unfold denom at hD
  rw [sci1] at hD
  have key : ∀ f g1 g2 : ℝ, g1 = f + m.rlamda / m.p.rlamdo + blm m.p → blm m.p < g2 →
      0 < g2 * g1 - blm m.p * blm m.p → 0 ≤ 1 - f * g2 / (g2 * g1 - blm m.p * blm m.p) := by
    intro f g1 g2 e h hD
    rw [sub_nonneg, div_le_one hD, e]
    have : 0 ≤ g2 * (m.rlamda / m.p.rlamdo) := mul_nonneg (by linarith) hl.le
    nlinarith
  unfold gamFroFactor
  rw [dz_zero, sci1]
  have hr := hp.rlamdo.le
  cases b
  · have := key m.p.foas m.gams m.gamn hb.gams h1 (by nlinarith)
    simp only [Bool.false_eq_true, if_false]
    positivity
  · have := key m.p.foan m.gamn m.gams hb.gamn h2 (by nlinarith)
    simp only [if_true]
    positivity

theorem dominant_coeff {w : ℝ} (ho : Ordered m.p w) (b : Bool) :
    let k := withEfficacy m.p.ocean_efficacy (coeff m.p (w / m.p.ldtime) (gamFroFactor m b))
    Dominant m.p.lm k.a k.b k.c := by
  intro k
  have hg := gamFro_nonneg hb hp b
  have hr := rakapafac_nonneg hp ho
  have hw := w_le hp ho
  have hm := hp.mixed
  have hl := hp.lm
  have hn : (0 : ℝ) < m.p.ldtime := by
    have := hp.ldtime; exact_mod_cast (by omega : 0 < m.p.ldtime)
  have hw0 : 0 ≤ w / m.p.ldtime := div_nonneg ho.upward hn.le
  have hws := ho.shallow
  have he := ho.efficacy
  have hc1 : coeffC m.p (w / m.p.ldtime) 1 ≤ 0 := by
    unfold coeffC
    rw [if_pos rfl, dz_zero, dz_succ, sci0]
    have : 0 ≤ rakapafac m.p / (m.p.mixed * (0 * m.p.mixed + 100)) := by positivity
    rw [neg_div]; linarith
  have hc : ∀ i, coeffC m.p (w / m.p.ldtime) i ≤ 0 := by
    intro i
    by_cases h1 : i = 1
    · rw [h1]; exact hc1
    · unfold coeffC
      rw [if_neg h1]
      split
      · have h3 := dz_pos hm (i - 1)
        have h4 := dz_pos hm i
        have : 0 ≤ rakapafac m.p / (dz m.p (i - 1) * (dz m.p (i - 1) + dz m.p i)) := by positivity
        have : 0 ≤ w / m.p.ldtime / dz m.p (i - 1) := by positivity
        rw [neg_div]; linarith
      · rw [sci0]
  have ha : ∀ i, coeffA m.p (w / m.p.ldtime) i ≤ 0 := by
    intro i
    unfold coeffA
    split
    · rw [dz_succ]
      have : w / m.p.ldtime / 100 ≤ rakapafac m.p / (100 * 100) := by
        rw [← div_div]; exact div_le_div_of_nonneg_right hw (by norm_num)
      rw [neg_div]; linarith
    · split
      · have h3 := dz_pos hm (i + 1)
        have h4 := dz_pos hm i
        have : 0 ≤ rakapafac m.p / (dz m.p (i + 1) * (dz m.p i + dz m.p (i + 1))) := by positivity
        rw [neg_div]; linarith
      · rw [sci0]
  have hka : ∀ i, k.a i = coeffA m.p (w / m.p.ldtime) i := fun i => by
    simp only [k, withEfficacy_a]; rfl
  have hkc : ∀ i, k.c i = if i = 1 then coeffC m.p (w / m.p.ldtime) 1 * m.p.ocean_efficacy
      else coeffC m.p (w / m.p.ldtime) i := fun i => by
    simp only [k, withEfficacy_c]; rfl
  have hkc' : ∀ i, k.c i ≤ 0 := fun i => by
    rw [hkc]; split
    · exact mul_nonpos_of_nonpos_of_nonneg hc1 he
    · exact hc i
  have hkb : ∀ i, k.b i = if i = 0 then 1 + gamFroFactor m b - w / m.p.ldtime / m.p.mixed
      - coeffC m.p (w / m.p.ldtime) 1 * m.p.ocean_efficacy
      else coeffB m.p (w / m.p.ldtime) (gamFroFactor m b) i := fun i => by
    simp only [k, withEfficacy_b]
    split
    · simp only [coeff, coeffB, if_true, dz_zero, sci1]; ring
    · rfl
  have h1m : w / m.p.ldtime / m.p.mixed < 1 := (div_lt_one hm).2 hws
  intro i hi
  refine ⟨fun _ => by rw [hka]; exact ha _, fun _ => hkc' _, ?_⟩
  rw [hka, hkb, abs_of_nonpos (ha _), abs_of_nonpos (hkc' _)]
  by_cases h0 : i = 0
  · subst h0
    rw [if_neg (by omega), if_pos (by omega), if_pos rfl, hkc, zero_add, if_pos rfl]
    linarith
  · rw [if_pos (by omega), if_neg h0]
    by_cases hlast : i = m.p.lm - 1
    · rw [if_neg (by omega)]
      unfold coeffB
      rw [if_neg h0, if_neg (by omega), if_pos hlast, sci1]
      have h3 := dz_pos hm (m.p.lm - 1)
      have : 0 ≤ w / m.p.ldtime / dz m.p (m.p.lm - 1) := by positivity
      have e : m.p.lm - 2 = i - 1 := by omega
      rw [e]; linarith
    · rw [if_pos (by omega), hkc, if_neg (by omega)]
      unfold coeffB
      rw [if_neg h0, if_pos (by omega), sci1]
      linarith

end

theorem dominant {m : Model ℝ} (hr : Ready m) (hp : Phys m.p m.rlamda) (a b : ℝ)
    (ha : Ordered m.p (upwelling m.p a)) (hb : Ordered m.p (upwelling m.p b)) :
    Dominant m.p.lm (refresh m a b).v.north.a (refresh m a b).v.north.b (refresh m a b).v.north.c ∧
    Dominant m.p.lm (refresh m a b).v.south.a (refresh m a b).v.south.b (refresh m a b).v.south.c := by
  obtain ⟨hr1, hu, h1, h2, _⟩ := refresh_spec hr a b
  have hp1 : Phys (refresh m a b).p (refresh m a b).rlamda := by rw [h1, h2]; exact hp
  rw [wcfac_eq, wcfac_eq, ← h1] at hu
  rw [← h1] at ha hb ⊢
  constructor
  · rw [hu.north]; exact dominant_coeff hr1.base hp1 ha true
  · rw [hu.south]; exact dominant_coeff hr1.base hp1 hb false

end Verif.Lemmas.UDM
