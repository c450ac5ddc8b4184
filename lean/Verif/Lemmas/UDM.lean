import Mathlib.Tactic.Linarith
import Mathlib.Tactic.Ring
import Mathlib.Tactic.FieldSimp
import Mathlib.Tactic.NormNum
import Mathlib.Algebra.BigOperators.Ring.Finset
import Mathlib.Algebra.BigOperators.Intervals
import Verif.Py.RealInst
import Verif.Model.UDM
import Verif.Spec.Tridiag
import Verif.Lemmas.Tridiag
import Verif.Lemmas.Except

/-!
# The upwelling-diffusion model over the reals: coefficients and sums
-/

namespace Verif.Lemmas.UDM
open Verif.Py Verif.Model.UDM Verif.Spec.Tridiag Verif.Lemmas
open Finset (range)

theorem sci0 : (0.0 : ℝ) = 0 := by norm_num
theorem sci1 : (1.0 : ℝ) = 1 := by norm_num
theorem sci2 : (2.0 : ℝ) = 2 := by norm_num
theorem sci100 : (100.0 : ℝ) = 100 := by norm_num

theorem c1_pos : (0 : ℝ) < c1 := by unfold c1; norm_num

@[simp] theorem dz_zero (p : Pams ℝ) : dz p 0 = p.mixed := rfl
theorem dz_pos {p : Pams ℝ} (h : 0 < p.mixed) (i : ℕ) : 0 < dz p i := by
  unfold dz; split <;> [exact h; norm_num]
theorem dz_succ (p : Pams ℝ) (i : ℕ) : dz p (i + 1) = 100 := by simp [dz]; norm_num

/-- The temperature flux (times depth and step) from layer `i` to layer `i + 1`: diffusion and
upwelling. -/
noncomputable def flux (p : Pams ℝ) (w : ℝ) (T : ℕ → ℝ) (i : ℕ) : ℝ :=
  if i + 1 < p.lm then
    if i = 0 then rakapafac p / 100 * (T 0 - T 1) - w * T 0
    else rakapafac p / 200 * (T i - T (i + 1)) - w * T (i + 1)
  else 0

/-- The entries of the efficacy-scaled system. -/
theorem withEfficacy_a (e : ℝ) (k : Coeffs ℝ) : (withEfficacy e k).a = k.a := by
  unfold withEfficacy; split <;> rfl

theorem withEfficacy_c (e : ℝ) (k : Coeffs ℝ) (i : ℕ) :
    (withEfficacy e k).c i = if i = 1 then k.c 1 * e else k.c i := by
  unfold withEfficacy
  split
  · rfl
  · rename_i h
    have : e = 1 := by simpa [isEq, sci1] using h
    subst this
    split
    · rename_i h; subst h; simp
    · rfl

theorem withEfficacy_b (e : ℝ) (k : Coeffs ℝ) (i : ℕ) :
    (withEfficacy e k).b i = if i = 0 then k.b 0 + k.c 1 - k.c 1 * e else k.b i := by
  unfold withEfficacy
  split
  · rfl
  · rename_i h
    have : e = 1 := by simpa [isEq, sci1] using h
    subst this
    split
    · rename_i h; subst h; simp
    · rfl

/-- Row `i` of the ocean system, weighted by layer depth: storage, flux out at the bottom, flux in at
the top, and in the first layer the surface coupling and the efficacy correction. -/
theorem dz_row (p : Pams ℝ) (hm : 0 < p.mixed) (hl : 2 ≤ p.lm) (w g e : ℝ) (T : ℕ → ℝ) (i : ℕ)
    (hi : i < p.lm) :
    dz p i * row p.lm (withEfficacy e (coeff p w g)).a (withEfficacy e (coeff p w g)).b
        (withEfficacy e (coeff p w g)).c T i
      = dz p i * T i + (flux p w T i - if i = 0 then 0 else flux p w T (i - 1))
        + if i = 0 then dz p 0 * g * T 0 + (e - 1) * (rakapafac p / 100) * (T 0 - T 1) else 0 := by
  have hm' : p.mixed ≠ 0 := ne_of_gt hm
  simp only [row, withEfficacy_a, withEfficacy_b, withEfficacy_c]
  rcases Nat.lt_trichotomy i 1 with h0 | h1 | h2
  · have : i = 0 := by omega
    subst this
    have h2 : (0 : ℕ) + 1 < p.lm := by omega
    simp only [coeff, coeffB, coeffC, coeffA, flux, dz, sci0, sci1, sci100, h2, if_true, if_false,
      lt_irrefl, Nat.zero_add, one_ne_zero, reduceIte]
    field_simp
    ring
  · subst h1
    by_cases h3 : 1 + 1 < p.lm
    · have h4 : 1 < p.lm - 1 := by omega
      have h5 : (1 : ℕ) < p.lm := by omega
      simp [coeff, coeffB, coeffC, coeffA, flux, dz, sci0, sci1, sci100, h3, h4, h5]
      ring
    · have h4 : p.lm = 2 := by omega
      simp [coeff, coeffB, coeffC, coeffA, flux, dz, sci0, sci1, sci100, h4]
      ring
  · obtain ⟨j, rfl⟩ : ∃ j, i = j + 2 := ⟨i - 2, by omega⟩
    by_cases h3 : j + 2 + 1 < p.lm
    · have h4 : j + 2 < p.lm - 1 := by omega
      have h5 : j + 1 < p.lm - 1 := by omega
      have h6 : j + 1 + 1 < p.lm := by omega
      simp [coeff, coeffB, coeffC, coeffA, flux, dz, sci0, sci1, sci100, h3, h4, h5, h6, hi]
      ring
    · have h4 : p.lm = j + 3 := by omega
      simp [coeff, coeffB, coeffC, coeffA, flux, dz, sci0, sci1, sci100, h4]
      ring

/-- Telescoping sum of fluxes. -/
theorem sum_flux (f : ℕ → ℝ) (n : ℕ) :
    ∑ i ∈ range n, (f i - if i = 0 then 0 else f (i - 1)) = if n = 0 then 0 else f (n - 1) := by
  induction n with
  | zero => simp
  | succ n ih =>
    rw [Finset.sum_range_succ, ih]
    by_cases h : n = 0
    · subst h; simp
    · simp [h]

/-- The weighted sum over all rows of a hemisphere: interior fluxes cancel. -/
theorem sum_rows (p : Pams ℝ) (hm : 0 < p.mixed) (hl : 2 ≤ p.lm) (w g e : ℝ) (T : ℕ → ℝ) :
    ∑ i ∈ range p.lm, dz p i * row p.lm (withEfficacy e (coeff p w g)).a
        (withEfficacy e (coeff p w g)).b (withEfficacy e (coeff p w g)).c T i
      = ∑ i ∈ range p.lm, dz p i * T i + p.mixed * g * T 0
        + (e - 1) * (rakapafac p / 100) * (T 0 - T 1) := by
  rw [Finset.sum_congr rfl (fun i hi => dz_row p hm hl w g e T i (Finset.mem_range.mp hi))]
  rw [Finset.sum_add_distrib, Finset.sum_add_distrib, sum_flux]
  have h1 : p.lm ≠ 0 := by omega
  have h2 : ¬ (p.lm - 1 + 1 < p.lm) := by omega
  rw [if_neg h1, flux, if_neg h2]
  have h3 : ∑ i ∈ range p.lm, (if i = 0 then dz p 0 * g * T 0
      + (e - 1) * (rakapafac p / 100) * (T 0 - T 1) else 0)
      = dz p 0 * g * T 0 + (e - 1) * (rakapafac p / 100) * (T 0 - T 1) := by
    rw [Finset.sum_ite_eq' (range p.lm) 0 (fun _ => dz p 0 * g * T 0
      + (e - 1) * (rakapafac p / 100) * (T 0 - T 1))]
    simp [h1]
  rw [h3, dz_zero]
  ring

/-! ## Derived quantities -/

/-- The quantities that depend on the parameters and the current feedback only. -/
structure Base (m : Model ℝ) : Prop where
  fnx : m.fnx = m.rlamda + m.p.foan * m.p.rlamdo + m.p.ebbeta
  fsx : m.fsx = m.rlamda + m.p.foas * m.p.rlamdo + m.p.ebbeta
  gamn : m.gamn = m.p.foan + m.rlamda / m.p.rlamdo + blm m.p
  gams : m.gams = m.p.foas + m.rlamda / m.p.rlamdo + blm m.p
  dtrm2n : m.v.dtrm2n = (m.p.beto + m.p.foas * m.p.ebbeta / denom m.p m.gamn m.gams)
    * (dt m.p / (c1 * m.p.mixed))
  dtrm3n : m.v.dtrm3n = m.gams / denom m.p m.gamn m.gams * (dt m.p / (c1 * m.p.mixed))
  dtrm4n : m.v.dtrm4n = blm m.p / denom m.p m.gamn m.gams * (dt m.p / (c1 * m.p.mixed))
  dtrm2s : m.v.dtrm2s = (fnso m.p * m.p.beto + m.p.foan * m.p.ebbeta / denom m.p m.gamn m.gams)
    * (dt m.p / (c1 * m.p.mixed))
  dtrm3s : m.v.dtrm3s = m.gamn / denom m.p m.gamn m.gams * (dt m.p / (c1 * m.p.mixed))
  dtrm4s : m.v.dtrm4s = blm m.p / denom m.p m.gamn m.gams * (dt m.p / (c1 * m.p.mixed))
  dtmnl3 : m.v.dtmnl3 = dt m.p * m.p.beto / (c1 * dz m.p (m.p.lm - 1))
  dtmnl1 : m.v.dtmnl1 = 1 - m.v.dtmnl3
  dtmsl3 : m.v.dtmsl3 = fnso m.p * m.v.dtmnl3
  dtmsl1 : m.v.dtmsl1 = 1 - m.v.dtmsl3

/-- The quantities that depend on the upwelling factors `wn`, `ws` as well. -/
structure Upwell (m : Model ℝ) (wn ws : ℝ) : Prop where
  north : m.v.north = withEfficacy m.p.ocean_efficacy (coeff m.p wn (gamFroFactor m true))
  dtrm1n : m.v.dtrm1n = 1 - m.p.cpi * wn / m.p.mixed - m.p.beto * dt m.p / (c1 * m.p.mixed)
  dtmnl2 : m.v.dtmnl2 = wn * m.p.cpi / dz m.p (m.p.lm - 1)
  south : m.v.south = withEfficacy m.p.ocean_efficacy (coeff m.p ws (gamFroFactor m false))
  dtrm1s : m.v.dtrm1s = 1 - m.p.cpi * ws / m.p.mixed
    - fnso m.p * m.p.beto * dt m.p / (c1 * m.p.mixed)
  dtmsl2 : m.v.dtmsl2 = ws * m.p.cpi / dz m.p (m.p.lm - 1)

theorem setupEbud2_base {m : Model ℝ} (h : Base m) (a b : ℝ) : Base (setupEbud2 m a b) := by
  obtain ⟨h1, h2, h3, h4, h5, h6, h7, h8, h9, h10, h11, h12, h13, h14⟩ := h
  exact ⟨h1, h2, h3, h4, h5, h6, h7, h8, h9, h10, h11, h12, h13, h14⟩

theorem setupEbud2_upwell (m : Model ℝ) (a b : ℝ) :
    Upwell (setupEbud2 m a b) (wcfac m.p a) (wcfac m.p b) := by
  refine ⟨rfl, ?_, rfl, rfl, ?_, rfl⟩ <;> simp [setupEbud2, sci1]

theorem setupEbud_base (m : Model ℝ) (h1 : m.fnx = fnxOf m.p m.rlamda)
    (h2 : m.fsx = fsxOf m.p m.rlamda) : Base (setupEbud m) := by
  apply setupEbud2_base
  refine ⟨h1, h2, rfl, ?_, ?_, ?_, ?_, ?_, ?_, ?_, ?_, ?_, ?_, ?_⟩ <;> simp [sci1]

theorem setupEbud_upwell (m : Model ℝ) :
    Upwell (setupEbud m) (wcfac m.p 0) (wcfac m.p 0) := by
  unfold setupEbud
  simp only [sci0]
  apply setupEbud2_upwell

/-- A model object whose derived quantities are up to date. -/
structure Ready (m : Model ℝ) : Prop where
  base : Base m
  flat : m.p.threstemp = 0 → Upwell m (wcfac m.p 0) (wcfac m.p 0)

theorem init_ready (p : Pams ℝ) : Ready (init p) :=
  ⟨setupEbud_base _ rfl rfl, fun _ => setupEbud_upwell _⟩

theorem setFeedback_ready {m : Model ℝ} (h : Ready m) (w : ℝ) : Ready (setFeedback m w) := by
  unfold setFeedback
  split
  · exact h
  · exact ⟨setupEbud_base _ rfl rfl, fun _ => setupEbud_upwell _⟩

theorem wcfac_flat {p : Pams ℝ} (h : p.threstemp = 0) (a b : ℝ) : wcfac p a = wcfac p b := by
  simp [wcfac, h, isEq, sci0]

/-- After the refresh of a sub-step all coefficients belong to the given surface temperatures. -/
theorem refresh_spec {m : Model ℝ} (h : Ready m) (a b : ℝ) :
    Ready (refresh m a b) ∧ Upwell (refresh m a b) (wcfac m.p a) (wcfac m.p b) ∧
    (refresh m a b).p = m.p ∧ (refresh m a b).rlamda = m.rlamda ∧ (refresh m a b).tn = m.tn ∧
    (refresh m a b).ts = m.ts ∧ (refresh m a b).prevFn = m.prevFn ∧
    (refresh m a b).prevFs = m.prevFs ∧ (refresh m a b).gamn = m.gamn ∧
    (refresh m a b).gams = m.gams := by
  unfold refresh
  split
  · rename_i ht
    have ht' : m.p.threstemp ≠ 0 := by simpa [isEq, sci0] using ht
    exact ⟨⟨setupEbud2_base h.base a b, fun h0 => absurd h0 ht'⟩, setupEbud2_upwell m a b,
      rfl, rfl, rfl, rfl, rfl, rfl, rfl, rfl⟩
  · rename_i ht
    have ht' : m.p.threstemp = 0 := by simpa [isEq, sci0] using ht
    refine ⟨h, ?_, rfl, rfl, rfl, rfl, rfl, rfl, rfl, rfl⟩
    rw [wcfac_flat ht' a 0, wcfac_flat ht' b 0]
    exact h.flat ht'

theorem Ready.withTemps {m : Model ℝ} (h : Ready m) (tn ts : ℕ → ℝ) (a b : ℝ) :
    Ready { m with tn := tn, ts := ts, prevFn := a, prevFs := b } := by
  obtain ⟨⟨h1, h2, h3, h4, h5, h6, h7, h8, h9, h10, h11, h12, h13, h14⟩, hf⟩ := h
  refine ⟨⟨h1, h2, h3, h4, h5, h6, h7, h8, h9, h10, h11, h12, h13, h14⟩, fun h0 => ?_⟩
  obtain ⟨u1, u2, u3, u4, u5, u6⟩ := hf h0
  exact ⟨u1, u2, u3, u4, u5, u6⟩

/-! ## Right-hand sides -/

/-- The right-hand side of a row, weighted by layer depth (northern hemisphere). -/
theorem dz_rhsNorth {m : Model ℝ} (hb : Base m) {wn ws : ℝ} (hu : Upwell m wn ws)
    (hm : 0 < m.p.mixed) (hl : 2 ≤ m.p.lm) (dqn dqs : ℝ) (i : ℕ) (hi : i < m.p.lm) :
    dz m.p i * rhsNorth m dqn dqs i
      = dz m.p i * m.tn i + m.p.beto * dt m.p / c1 * (m.ts i - m.tn i)
        + (if i = 0 then -(m.p.cpi * wn * m.tn 0) + dt m.p / c1 *
            ((m.p.foas * m.p.ebbeta * m.ts 0 + m.gams * dqn + blm m.p * dqs)
              / denom m.p m.gamn m.gams) else 0)
        + (if i = m.p.lm - 1 then m.p.cpi * wn * m.tn 0 else 0) := by
  have hm' : m.p.mixed ≠ 0 := ne_of_gt hm
  have hc : (c1 : ℝ) ≠ 0 := ne_of_gt c1_pos
  by_cases h0 : i = 0
  · subst h0
    have h1 : ¬ (0 = m.p.lm - 1) := by omega
    simp only [rhsNorth, if_true, if_neg h1, hu.dtrm1n, hb.dtrm2n, hb.dtrm3n, hb.dtrm4n, dz_zero]
    generalize denom m.p m.gamn m.gams = D
    field_simp
    ring
  · have hz : dz m.p i ≠ 0 := ne_of_gt (dz_pos hm i)
    by_cases h1 : i = m.p.lm - 1
    · simp only [rhsNorth, if_neg h0, ← h1, if_true, hb.dtmnl1, hu.dtmnl2, hb.dtmnl3]
      field_simp
      ring
    · simp only [rhsNorth, if_neg h0, if_neg h1, if_pos hi]
      field_simp
      ring

/-- The right-hand side of a row, weighted by layer depth (southern hemisphere). -/
theorem dz_rhsSouth {m : Model ℝ} (hb : Base m) {wn ws : ℝ} (hu : Upwell m wn ws)
    (hm : 0 < m.p.mixed) (hl : 2 ≤ m.p.lm) (dqn dqs : ℝ) (i : ℕ) (hi : i < m.p.lm) :
    dz m.p i * rhsSouth m dqn dqs i
      = dz m.p i * m.ts i + fnso m.p * m.p.beto * dt m.p / c1 * (m.tn i - m.ts i)
        + (if i = 0 then -(m.p.cpi * ws * m.ts 0) + dt m.p / c1 *
            ((m.p.foan * m.p.ebbeta * m.tn 0 + m.gamn * dqs + blm m.p * dqn)
              / denom m.p m.gamn m.gams) else 0)
        + (if i = m.p.lm - 1 then m.p.cpi * ws * m.ts 0 else 0) := by
  have hm' : m.p.mixed ≠ 0 := ne_of_gt hm
  have hc : (c1 : ℝ) ≠ 0 := ne_of_gt c1_pos
  by_cases h0 : i = 0
  · subst h0
    have h1 : ¬ (0 = m.p.lm - 1) := by omega
    simp only [rhsSouth, if_true, if_neg h1, hu.dtrm1s, hb.dtrm2s, hb.dtrm3s, hb.dtrm4s, dz_zero]
    generalize denom m.p m.gamn m.gams = D
    field_simp
    ring
  · have hz : dz m.p i ≠ 0 := ne_of_gt (dz_pos hm i)
    by_cases h1 : i = m.p.lm - 1
    · simp only [rhsSouth, if_neg h0, ← h1, if_true, hb.dtmsl1, hu.dtmsl2, hb.dtmsl3, hb.dtmnl3]
      field_simp
      ring
    · simp only [rhsSouth, if_neg h0, if_neg h1, if_pos hi]
      field_simp
      ring

theorem sum_ends (n : ℕ) (hn : 2 ≤ n) (f : ℕ → ℝ) (x y : ℝ) :
    ∑ i ∈ range n, (f i + (if i = 0 then x else 0) + (if i = n - 1 then y else 0))
      = ∑ i ∈ range n, f i + x + y := by
  rw [Finset.sum_add_distrib, Finset.sum_add_distrib]
  have h1 : ∑ i ∈ range n, (if i = 0 then x else 0) = x := by
    rw [Finset.sum_ite_eq' (range n) 0 (fun _ => x)]; simp; omega
  have h2 : ∑ i ∈ range n, (if i = n - 1 then y else 0) = y := by
    rw [Finset.sum_ite_eq' (range n) (n - 1) (fun _ => y)]; simp; omega
  rw [h1, h2]

/-- Heat budget of the northern hemisphere in a step. -/
theorem budget_north {m : Model ℝ} (hb : Base m) {wn ws : ℝ} (hu : Upwell m wn ws)
    (hm : 0 < m.p.mixed) (hl : 2 ≤ m.p.lm) (dqn dqs : ℝ) (T : ℕ → ℝ)
    (hT : Solves m.p.lm m.v.north.a m.v.north.b m.v.north.c (rhsNorth m dqn dqs) T) :
    ∑ i ∈ range m.p.lm, dz m.p i * T i + m.p.mixed * gamFroFactor m true * T 0
        + (m.p.ocean_efficacy - 1) * (rakapafac m.p / 100) * (T 0 - T 1)
      = ∑ i ∈ range m.p.lm, dz m.p i * m.tn i
        + m.p.beto * dt m.p / c1 * ∑ i ∈ range m.p.lm, (m.ts i - m.tn i)
        + dt m.p / c1 * ((m.p.foas * m.p.ebbeta * m.ts 0 + m.gams * dqn + blm m.p * dqs)
              / denom m.p m.gamn m.gams) := by
  rw [← sum_rows m.p hm hl wn (gamFroFactor m true) m.p.ocean_efficacy T, ← hu.north]
  rw [Finset.sum_congr rfl (fun i hi => by rw [hT i (Finset.mem_range.mp hi),
    dz_rhsNorth hb hu hm hl dqn dqs i (Finset.mem_range.mp hi)])]
  rw [sum_ends _ hl, Finset.sum_add_distrib, Finset.mul_sum]
  ring

/-- Heat budget of the southern hemisphere in a step. -/
theorem budget_south {m : Model ℝ} (hb : Base m) {wn ws : ℝ} (hu : Upwell m wn ws)
    (hm : 0 < m.p.mixed) (hl : 2 ≤ m.p.lm) (dqn dqs : ℝ) (T : ℕ → ℝ)
    (hT : Solves m.p.lm m.v.south.a m.v.south.b m.v.south.c (rhsSouth m dqn dqs) T) :
    ∑ i ∈ range m.p.lm, dz m.p i * T i + m.p.mixed * gamFroFactor m false * T 0
        + (m.p.ocean_efficacy - 1) * (rakapafac m.p / 100) * (T 0 - T 1)
      = ∑ i ∈ range m.p.lm, dz m.p i * m.ts i
        + fnso m.p * m.p.beto * dt m.p / c1 * ∑ i ∈ range m.p.lm, (m.tn i - m.ts i)
        + dt m.p / c1 * ((m.p.foan * m.p.ebbeta * m.tn 0 + m.gamn * dqs + blm m.p * dqn)
              / denom m.p m.gamn m.gams) := by
  rw [← sum_rows m.p hm hl ws (gamFroFactor m false) m.p.ocean_efficacy T, ← hu.south]
  rw [Finset.sum_congr rfl (fun i hi => by rw [hT i (Finset.mem_range.mp hi),
    dz_rhsSouth hb hu hm hl dqn dqs i (Finset.mem_range.mp hi)])]
  rw [sum_ends _ hl, Finset.sum_add_distrib, Finset.mul_sum]
  ring

/-! ## Air temperatures and surface fluxes -/

/-- Physically meaningful parameters and feedback. -/
structure Phys (p : Pams ℝ) (rlamda : ℝ) : Prop where
  rlamda : 0 < rlamda
  rlamdo : 0 < p.rlamdo
  foan : 0 < p.foan
  foas : 0 < p.foas
  ebbeta : 0 ≤ p.ebbeta
  mixed : 0 < p.mixed
  lm : 2 ≤ p.lm
  ldtime : 1 ≤ p.ldtime

section
variable {m : Model ℝ} (hb : Base m) (hp : Phys m.p m.rlamda)
include hb hp

theorem blm_nonneg : 0 ≤ blm m.p := div_nonneg hp.ebbeta hp.rlamdo.le

theorem gamn_gt : blm m.p < m.gamn := by
  rw [hb.gamn]
  have := div_pos hp.rlamda hp.rlamdo
  have := hp.foan
  linarith

theorem gams_gt : blm m.p < m.gams := by
  rw [hb.gams]
  have := div_pos hp.rlamda hp.rlamdo
  have := hp.foas
  linarith

theorem denom_pos : 0 < denom m.p m.gamn m.gams := by
  have h0 := blm_nonneg hb hp
  have h1 := gamn_gt hb hp
  have h2 := gams_gt hb hp
  unfold denom
  rw [sci1]
  nlinarith

theorem fnx_eq : m.fnx = m.p.rlamdo * m.gamn := by
  have := hp.rlamdo.ne'
  rw [hb.fnx, hb.gamn, blm]; field_simp; ring

theorem fsx_eq : m.fsx = m.p.rlamdo * m.gams := by
  have := hp.rlamdo.ne'
  rw [hb.fsx, hb.gams, blm]; field_simp; ring

theorem ebbeta_eq : m.p.ebbeta = m.p.rlamdo * blm m.p := by
  have := hp.rlamdo.ne'
  rw [blm]; field_simp

/-- The northern air temperature, without the nested fractions. -/
theorem airNorth_eq (dqn dqs x y : ℝ) :
    airNorth m dqn dqs x y = (m.gams * (dqn + m.p.foan * m.p.rlamdo * x)
      + blm m.p * (dqs + m.p.foas * m.p.rlamdo * y)) / (m.p.rlamdo * denom m.p m.gamn m.gams) := by
  have h0 := hp.rlamdo.ne'
  have h1 : m.gams ≠ 0 := ne_of_gt (lt_of_le_of_lt (blm_nonneg hb hp) (gams_gt hb hp))
  have h2 := (denom_pos hb hp).ne'
  have e : m.p.rlamdo * m.gamn - m.p.rlamdo * blm m.p * (m.p.rlamdo * blm m.p) / (m.p.rlamdo * m.gams)
      = m.p.rlamdo * denom m.p m.gamn m.gams / m.gams := by
    unfold denom; rw [sci1]; field_simp
  unfold airNorth
  rw [fnx_eq hb hp, fsx_eq hb hp, ebbeta_eq hb hp, e]
  field_simp

/-- The southern air temperature, without the nested fractions. -/
theorem airSouth_eq (dqn dqs x y : ℝ) :
    airSouth m dqn dqs x y = (m.gamn * (dqs + m.p.foas * m.p.rlamdo * y)
      + blm m.p * (dqn + m.p.foan * m.p.rlamdo * x)) / (m.p.rlamdo * denom m.p m.gamn m.gams) := by
  have h0 := hp.rlamdo.ne'
  have h1 : m.gamn ≠ 0 := ne_of_gt (lt_of_le_of_lt (blm_nonneg hb hp) (gamn_gt hb hp))
  have h2 := (denom_pos hb hp).ne'
  have e : m.p.rlamdo * m.gams - m.p.rlamdo * blm m.p * (m.p.rlamdo * blm m.p) / (m.p.rlamdo * m.gamn)
      = m.p.rlamdo * denom m.p m.gamn m.gams / m.gamn := by
    unfold denom; rw [sci1]; field_simp
  unfold airSouth
  rw [fnx_eq hb hp, fsx_eq hb hp, ebbeta_eq hb hp, e]
  field_simp

/-- The northern surface energy balance. -/
theorem balance_north (dqn dqs x y : ℝ) :
    m.rlamda * airNorth m dqn dqs x y + m.p.foan * m.p.rlamdo * (airNorth m dqn dqs x y - x)
      + m.p.ebbeta * (airNorth m dqn dqs x y - airSouth m dqn dqs x y) = dqn := by
  have h0 := hp.rlamdo.ne'
  have h2 := (denom_pos hb hp).ne'
  have e : m.rlamda = m.p.rlamdo * (m.gamn - m.p.foan - blm m.p) := by
    rw [hb.gamn]; field_simp; ring
  rw [airNorth_eq hb hp, airSouth_eq hb hp, e, ebbeta_eq hb hp]
  field_simp
  unfold denom
  rw [sci1]
  ring

/-- The southern surface energy balance. -/
theorem balance_south (dqn dqs x y : ℝ) :
    m.rlamda * airSouth m dqn dqs x y + m.p.foas * m.p.rlamdo * (airSouth m dqn dqs x y - y)
      + m.p.ebbeta * (airSouth m dqn dqs x y - airNorth m dqn dqs x y) = dqs := by
  have h0 := hp.rlamdo.ne'
  have h2 := (denom_pos hb hp).ne'
  have e : m.rlamda = m.p.rlamdo * (m.gams - m.p.foas - blm m.p) := by
    rw [hb.gams]; field_simp; ring
  rw [airNorth_eq hb hp, airSouth_eq hb hp, e, ebbeta_eq hb hp]
  field_simp
  unfold denom
  rw [sci1]
  ring

/-- Heat budget of both hemispheres in a step: everything but the air-sea exchange cancels. The last
term on the right is the difference between the old and the new sea surface temperature of the other
hemisphere in the air-sea exchange; the efficacy term vanishes for efficacy one. -/
theorem budget_step {wn ws : ℝ} (hu : Upwell m wn ws) (dqn dqs : ℝ) (tn ts : ℕ → ℝ)
    (hn : Solves m.p.lm m.v.north.a m.v.north.b m.v.north.c (rhsNorth m dqn dqs) tn)
    (hs : Solves m.p.lm m.v.south.a m.v.south.b m.v.south.c (rhsSouth m dqn dqs) ts) :
    c1 * (∑ i ∈ range m.p.lm, dz m.p i * (m.p.foan * tn i + m.p.foas * ts i)
        - ∑ i ∈ range m.p.lm, dz m.p i * (m.p.foan * m.tn i + m.p.foas * m.ts i))
      + c1 * (m.p.ocean_efficacy - 1) * (rakapafac m.p / 100)
        * (m.p.foan * (tn 0 - tn 1) + m.p.foas * (ts 0 - ts 1))
      = dt m.p * (m.p.rlamdo * (m.p.foan * (airNorth m dqn dqs (tn 0) (ts 0) - tn 0)
            + m.p.foas * (airSouth m dqn dqs (tn 0) (ts 0) - ts 0))
          + m.p.foan * m.p.foas * m.p.ebbeta / denom m.p m.gamn m.gams
            * ((m.tn 0 + m.ts 0) - (tn 0 + ts 0))) := by
  have h0 := hp.rlamdo.ne'
  have h1 := hp.mixed.ne'
  have h2 := (denom_pos hb hp).ne'
  have h3 : (c1 : ℝ) ≠ 0 := ne_of_gt c1_pos
  have h4 := hp.foas.ne'
  have en := budget_north hb hu hp.mixed hp.lm dqn dqs tn hn
  have es := budget_south hb hu hp.mixed hp.lm dqn dqs ts hs
  have x1 : m.p.mixed * gamFroFactor m true
      = m.p.rlamdo * (1 - m.p.foan * m.gams / denom m.p m.gamn m.gams) * dt m.p / c1 := by
    simp only [gamFroFactor, if_true, dz_zero, sci1, denom, one_mul]; field_simp
  have x2 : m.p.mixed * gamFroFactor m false
      = m.p.rlamdo * (1 - m.p.foas * m.gamn / denom m.p m.gamn m.gams) * dt m.p / c1 := by
    simp only [gamFroFactor, dz_zero, sci1, denom, one_mul, Bool.false_eq_true, if_false,
      mul_comm m.gamn m.gams]
    field_simp
  have hop : ∑ i ∈ range m.p.lm, (m.tn i - m.ts i) = -∑ i ∈ range m.p.lm, (m.ts i - m.tn i) := by
    rw [← Finset.sum_neg_distrib]; exact Finset.sum_congr rfl (fun i _ => by ring)
  rw [x1] at en
  rw [x2, hop] at es
  have hsum : ∀ f g : ℕ → ℝ, ∑ i ∈ range m.p.lm, dz m.p i * (m.p.foan * f i + m.p.foas * g i)
      = m.p.foan * ∑ i ∈ range m.p.lm, dz m.p i * f i
        + m.p.foas * ∑ i ∈ range m.p.lm, dz m.p i * g i := by
    intro f g
    rw [Finset.mul_sum, Finset.mul_sum, ← Finset.sum_add_distrib]
    exact Finset.sum_congr rfl (fun i _ => by ring)
  rw [hsum, hsum, airNorth_eq hb hp, airSouth_eq hb hp]
  have hf : m.p.foas * fnso m.p = m.p.foan := by unfold fnso; field_simp
  have he := ebbeta_eq hb hp
  generalize hA : ∑ i ∈ range m.p.lm, dz m.p i * tn i = A at *
  generalize hB : ∑ i ∈ range m.p.lm, dz m.p i * ts i = B at *
  generalize hA' : ∑ i ∈ range m.p.lm, dz m.p i * m.tn i = A' at *
  generalize hB' : ∑ i ∈ range m.p.lm, dz m.p i * m.ts i = B' at *
  generalize hS : ∑ i ∈ range m.p.lm, (m.ts i - m.tn i) = S at *
  generalize hD : denom m.p m.gamn m.gams = D at *
  have e1 := congrArg (fun z => c1 * m.p.foan * z) en
  have e2 := congrArg (fun z => c1 * m.p.foas * z) es
  rw [he] at e1 e2 ⊢
  have key : m.p.foas * (fnso m.p * m.p.beto * dt m.p / c1 * -S)
      = -(m.p.foan * (m.p.beto * dt m.p / c1 * S)) := by
    rw [← hf]; ring
  have e3 : c1 * m.p.foan * (A - A') + c1 * m.p.foas * (B - B')
      = c1 * m.p.foan * (dt m.p / c1 * ((m.p.foas * (m.p.rlamdo * blm m.p) * m.ts 0 + m.gams * dqn
            + blm m.p * dqs) / D))
        + c1 * m.p.foas * (dt m.p / c1 * ((m.p.foan * (m.p.rlamdo * blm m.p) * m.tn 0 + m.gamn * dqs
            + blm m.p * dqn) / D))
        - c1 * m.p.foan * (m.p.rlamdo * (1 - m.p.foan * m.gams / D) * dt m.p / c1 * tn 0)
        - c1 * m.p.foas * (m.p.rlamdo * (1 - m.p.foas * m.gamn / D) * dt m.p / c1 * ts 0)
        - c1 * (m.p.ocean_efficacy - 1) * (rakapafac m.p / 100)
          * (m.p.foan * (tn 0 - tn 1) + m.p.foas * (ts 0 - ts 1)) := by
    have e4 := congrArg (fun z => c1 * z) key
    linear_combination e1 + e2 + e4
  have e5 : c1 * (m.p.foan * A + m.p.foas * B - (m.p.foan * A' + m.p.foas * B'))
      = c1 * m.p.foan * (A - A') + c1 * m.p.foas * (B - B') := by ring
  rw [e5, e3]
  field_simp
  ring

end

end Verif.Lemmas.UDM
