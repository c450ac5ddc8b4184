import Verif.Props.C35

/-!
# C78: bounded forcing keeps the diffusion model's temperatures bounded, and no year fails
-/

namespace Verif.Props.C78
open Verif.Py Verif.Model.UDM Verif.Spec.Tridiag Verif.Spec.Diffusion Verif.Lemmas Verif.Lemmas.UDM
  Verif.Lemmas.Tridiag Verif.Props.C35
open Finset (range)

/-- The object with other layer temperatures. -/
noncomputable def shifted (m : Model ℝ) (M s : ℝ) : Model ℝ :=
  { m with tn := fun i => M + s * m.tn i, ts := fun i => M + s * m.ts i }

theorem shifted_base {m : Model ℝ} (hb : Base m) (M s : ℝ) : Base (shifted m M s) := by
  obtain ⟨h1, h2, h3, h4, h5, h6, h7, h8, h9, h10, h11, h12, h13, h14⟩ := hb
  exact ⟨h1, h2, h3, h4, h5, h6, h7, h8, h9, h10, h11, h12, h13, h14⟩

theorem shifted_upwell {m : Model ℝ} {a b : ℝ} (hu : Upwell m a b) (M s : ℝ) :
    Upwell (shifted m M s) a b := by
  obtain ⟨u1, u2, u3, u4, u5, u6⟩ := hu
  exact ⟨u1, u2, u3, u4, u5, u6⟩

section
variable {m : Model ℝ} (hb : Base m) (hp : Phys m.p m.rlamda)
include hb hp

/-- What the feedback leaves over, in the form the first row has it. -/
theorem leftover {M B w : ℝ} (hM : 0 < M) (f g1 g2 : ℝ) (hf : 0 < f)
    (h1 : g1 = f + m.rlamda / m.p.rlamdo + blm m.p) (f2 : ℝ)
    (h2 : g2 = f2 + m.rlamda / m.p.rlamdo + blm m.p) (hf2 : 0 < f2) {cpi : ℝ}
    (hB : 0 ≤ m.rlamda - B / M)
    (h : (1 - cpi) * capacity * (w / year)
      ≤ (m.rlamda - B / M) * m.p.rlamdo / (f * m.p.rlamdo + m.rlamda + m.p.ebbeta)) :
    M * ((1 - cpi) * c1 * (w / year)) ≤ M * (m.p.rlamdo * (1 - f * g2 / (g2 * g1 - blm m.p * blm m.p)))
      - (f2 * m.p.ebbeta * M + g2 * B + blm m.p * B) / (g2 * g1 - blm m.p * blm m.p) := by
  have hr := hp.rlamdo
  have hl := hp.rlamda
  have h0 := blm_nonneg hb hp
  have hq := div_pos hl hr
  have g1p : 0 < g1 := by rw [h1]; linarith
  have g2p : blm m.p < g2 := by rw [h2]; linarith
  have hD : 0 < g2 * g1 - blm m.p * blm m.p := by
    have : blm m.p < g1 := by rw [h1]; linarith
    nlinarith
  have eb := ebbeta_eq hb hp
  have el : m.rlamda = m.p.rlamdo * (m.rlamda / m.p.rlamdo) := by field_simp
  have e1 : f * m.p.rlamdo + m.rlamda + m.p.ebbeta = m.p.rlamdo * g1 := by
    rw [h1, eb]; field_simp
  have e2 : M * (m.p.rlamdo * (1 - f * g2 / (g2 * g1 - blm m.p * blm m.p)))
      - (f2 * m.p.ebbeta * M + g2 * B + blm m.p * B) / (g2 * g1 - blm m.p * blm m.p)
      = M * (m.rlamda - B / M) * ((g2 + blm m.p) / (g2 * g1 - blm m.p * blm m.p)) := by
    have hne := hD.ne'
    have key : m.p.rlamdo * (g2 * g1 - blm m.p * blm m.p - f * g2) - f2 * m.p.ebbeta
        = m.rlamda * (g2 + blm m.p) := by
      rw [eb, el, h1]
      have : f2 = g2 - m.rlamda / m.p.rlamdo - blm m.p := by rw [h2]; ring
      rw [this]; field_simp; ring
    generalize g2 * g1 - blm m.p * blm m.p = D at hne key ⊢
    have h3 : f2 * m.p.ebbeta = m.p.rlamdo * (D - f * g2) - m.rlamda * (g2 + blm m.p) := by linarith
    rw [h3]
    field_simp
    ring
  rw [e2]
  rw [e1] at h
  have e3 : 1 / g1 ≤ (g2 + blm m.p) / (g2 * g1 - blm m.p * blm m.p) := by
    rw [div_le_div_iff₀ g1p hD]
    nlinarith [mul_nonneg h0 h0, mul_nonneg h0 g1p.le]
  have e4 : (m.rlamda - B / M) * m.p.rlamdo / (m.p.rlamdo * g1) = (m.rlamda - B / M) * (1 / g1) := by
    field_simp
  rw [e4, ← c1_eq] at h
  rw [mul_assoc M]
  refine mul_le_mul_of_nonneg_left (h.trans ?_) hM.le
  exact mul_le_mul_of_nonneg_left e3 hB

variable {wn ws M B : ℝ} (hu : Upwell m (wn / m.p.ldtime) (ws / m.p.ldtime)) (hM : 0 < M)
  (hdn : Damped m.p m.rlamda B M wn) (hds : Damped m.p m.rlamda B M ws)

omit hb hp in
theorem scaled (w : ℝ) (hp : Phys m.p m.rlamda) : w / m.p.ldtime = dt m.p * (w / year) := by
  have := ldtime_ne hp
  rw [dt_eq]
  have hy : year ≠ 0 := by unfold year; norm_num
  field_simp

omit hb in
include hdn in
theorem spare_nonneg : 0 ≤ m.rlamda - B / M := by
  have h := hdn.north
  have h0 : 0 ≤ (1 - m.p.cpi) * capacity * (wn / year) := by
    have h1 := hdn.sinking
    have h2 := hdn.ordered.upward
    have h3 : (0 : ℝ) < capacity := by rw [← c1_eq]; exact c1_pos
    have h4 : (0 : ℝ) < year := by unfold year; norm_num
    exact mul_nonneg (mul_nonneg (by linarith) h3.le) (div_nonneg h2 h4.le)
  have hr := hp.rlamdo
  have hd : 0 < m.p.foan * m.p.rlamdo + m.rlamda + m.p.ebbeta := by
    have := hp.foan; have := hp.rlamda; have := hp.ebbeta; positivity
  by_contra hn
  push Not at hn
  have : (m.rlamda - B / M) * m.p.rlamdo / (m.p.foan * m.p.rlamdo + m.rlamda + m.p.ebbeta) < 0 :=
    div_neg_of_neg_of_pos (mul_neg_of_neg_of_pos hn hr) hd
  linarith

omit hb hp in
/-- The upward flux of water of constant temperature. -/
theorem flux_const (p : Pams ℝ) (u : ℝ) (i : ℕ) :
    flux p u (fun _ => M) i = if i + 1 < p.lm then -(u * M) else 0 := by
  unfold flux
  split
  · split <;> ring
  · rfl

include hu hM hdn hds in
/-- Comparison with the constant temperature `M`. -/
theorem solution_bound {s dqn dqs : ℝ} (hn : 0 ≤ B + s * dqn) (hso : 0 ≤ B + s * dqs)
    (htn : ∀ i, 0 ≤ M + s * m.tn i) (hts : ∀ i, 0 ≤ M + s * m.ts i) {tn ts : ℕ → ℝ}
    (h1 : Solves m.p.lm m.v.north.a m.v.north.b m.v.north.c (rhsNorth m dqn dqs) tn)
    (h2 : Solves m.p.lm m.v.south.a m.v.south.b m.v.south.c (rhsSouth m dqn dqs) ts) :
    ∀ i < m.p.lm, 0 ≤ M + s * tn i ∧ 0 ≤ M + s * ts i := by
  have hmx := hp.mixed
  have hl := hp.lm
  have hB := spare_nonneg hp hdn
  have hsb := shifted_base hb M s
  have hsu := shifted_upwell hu M s
  have D1 : Dominant m.p.lm m.v.north.a m.v.north.b m.v.north.c := by
    rw [hu.north]; exact dominant_coeff hb hp hdn.ordered true
  have D2 : Dominant m.p.lm m.v.south.a m.v.south.b m.v.south.c := by
    rw [hu.south]; exact dominant_coeff hb hp hds.ordered false
  have rn := rhs_nonneg (m := shifted m M s) hsb hp hsu hdn.ordered hds.ordered hdn.gentle hds.gentle
    hn hso htn hts
  have hc := c1_pos.ne'
  have hdt := dt_pos hp
  have hlast : ∀ j, j ≠ 0 → dz m.p j = 100 := by
    intro j hj
    obtain ⟨k, rfl⟩ := Nat.exists_eq_succ_of_ne_zero hj
    exact dz_succ _ _
  have n1 : ∀ i < m.p.lm, 0 ≤ M + s * tn i := by
    refine nonneg (T := fun i => M + s * tn i) D1 fun i hi => ?_
    have hrow : row m.p.lm m.v.north.a m.v.north.b m.v.north.c (fun i => M + s * tn i) i
        = row m.p.lm m.v.north.a m.v.north.b m.v.north.c (fun _ => M) i + s * rhsNorth m dqn dqs i := by
      rw [row_add m.p.lm _ _ _ (fun _ => M) (fun i => s * tn i), row_smul, h1 i hi]
    rw [hrow]
    have hz := dz_pos hmx i
    have r1 := dz_row m.p hmx hl (wn / m.p.ldtime) (gamFroFactor m true) m.p.ocean_efficacy
      (fun _ => M) i hi
    rw [← hu.north] at r1
    have r2 := dz_rhsNorth hb hu hmx hl dqn dqs i hi
    have r3 : dz m.p i * rhsNorth (shifted m M s) (B + s * dqn) (B + s * dqs) i
        = dz m.p i * (M + s * m.tn i)
          + m.p.beto * dt m.p / c1 * ((M + s * m.ts i) - (M + s * m.tn i))
          + (if i = 0 then -(m.p.cpi * (wn / m.p.ldtime) * (M + s * m.tn 0)) + dt m.p / c1 *
            ((m.p.foas * m.p.ebbeta * (M + s * m.ts 0) + m.gams * (B + s * dqn)
                + blm m.p * (B + s * dqs)) / denom m.p m.gamn m.gams) else 0)
          + (if i = m.p.lm - 1 then m.p.cpi * (wn / m.p.ldtime) * (M + s * m.tn 0) else 0) :=
      dz_rhsNorth hsb hsu hmx hl (B + s * dqn) (B + s * dqs) i hi
    have r4 : 0 ≤ dz m.p i * rhsNorth (shifted m M s) (B + s * dqn) (B + s * dqs) i :=
      mul_nonneg hz.le (rn i).1
    refine nonneg_of_mul_nonneg_right (a := dz m.p i) ?_ hz
    have goal : dz m.p i * rhsNorth (shifted m M s) (B + s * dqn) (B + s * dqs) i
        ≤ dz m.p i * (row m.p.lm m.v.north.a m.v.north.b m.v.north.c (fun _ => M) i
          + s * rhsNorth m dqn dqs i) := by
      rw [mul_add, mul_left_comm, r1, r2, r3]
      rw [scaled wn hp]
      by_cases h0 : i = 0
      · subst h0
        have hne : (0 : ℕ) ≠ m.p.lm - 1 := by omega
        have h01 : 0 + 1 < m.p.lm := by omega
        rw [flux_const, if_pos h01]
        have key := leftover hb hp hM m.p.foan m.gamn m.gams hp.foan hb.gamn m.p.foas hb.gams hp.foas
          hB hdn.north
        have key' := mul_le_mul_of_nonneg_left key (div_pos hdt c1_pos).le
        simp only [gamFroFactor, dz_zero, if_neg hne, if_true, sci1, denom]
        rw [one_mul]
        generalize m.gams * m.gamn - blm m.p * blm m.p = D at *
        have eg : m.p.mixed * (m.p.rlamdo * (1 - m.p.foan * m.gams / D) * dt m.p / (c1 * m.p.mixed))
            = dt m.p / c1 * (m.p.rlamdo * (1 - m.p.foan * m.gams / D)) := by field_simp
        have ew : dt m.p / c1 * (M * ((1 - m.p.cpi) * c1 * (wn / year)))
            = M * ((1 - m.p.cpi) * (dt m.p * (wn / year))) := by field_simp
        rw [ew] at key'
        rw [eg]
        generalize m.p.rlamdo * (1 - m.p.foan * m.gams / D) = X at *
        generalize dt m.p / c1 = K at *
        generalize dt m.p * (wn / year) = u at *
        ring_nf at key' ⊢
        linarith
      · rw [flux_const, flux_const, if_pos (by omega : i - 1 + 1 < m.p.lm)]
        have hu0 : 0 ≤ M * ((1 - m.p.cpi) * (dt m.p * (wn / year))) := by
          have h3 := hdn.sinking
          have h4 := hdn.ordered.upward
          have h5 : (0 : ℝ) < year := by unfold year; norm_num
          have h6 : 0 ≤ dt m.p * (wn / year) := mul_nonneg hdt.le (div_nonneg h4 h5.le)
          exact mul_nonneg hM.le (mul_nonneg (by linarith) h6)
        simp only [if_neg h0]
        by_cases hlst : i = m.p.lm - 1
        · rw [if_neg (by omega : ¬ i + 1 < m.p.lm), if_pos hlst, if_pos hlst]
          ring_nf at hu0 ⊢
          linarith
        · rw [if_pos (by omega : i + 1 < m.p.lm), if_neg hlst, if_neg hlst]
          ring_nf
          exact le_rfl
    linarith
  have n2 : ∀ i < m.p.lm, 0 ≤ M + s * ts i := by
    refine nonneg (T := fun i => M + s * ts i) D2 fun i hi => ?_
    have hrow : row m.p.lm m.v.south.a m.v.south.b m.v.south.c (fun i => M + s * ts i) i
        = row m.p.lm m.v.south.a m.v.south.b m.v.south.c (fun _ => M) i + s * rhsSouth m dqn dqs i := by
      rw [row_add m.p.lm _ _ _ (fun _ => M) (fun i => s * ts i), row_smul, h2 i hi]
    rw [hrow]
    have hz := dz_pos hmx i
    have r1 := dz_row m.p hmx hl (ws / m.p.ldtime) (gamFroFactor m false) m.p.ocean_efficacy
      (fun _ => M) i hi
    rw [← hu.south] at r1
    have r2 := dz_rhsSouth hb hu hmx hl dqn dqs i hi
    have r3 : dz m.p i * rhsSouth (shifted m M s) (B + s * dqn) (B + s * dqs) i
        = dz m.p i * (M + s * m.ts i)
          + fnso m.p * m.p.beto * dt m.p / c1 * ((M + s * m.tn i) - (M + s * m.ts i))
          + (if i = 0 then -(m.p.cpi * (ws / m.p.ldtime) * (M + s * m.ts 0)) + dt m.p / c1 *
            ((m.p.foan * m.p.ebbeta * (M + s * m.tn 0) + m.gamn * (B + s * dqs)
                + blm m.p * (B + s * dqn)) / denom m.p m.gamn m.gams) else 0)
          + (if i = m.p.lm - 1 then m.p.cpi * (ws / m.p.ldtime) * (M + s * m.ts 0) else 0) :=
      dz_rhsSouth hsb hsu hmx hl (B + s * dqn) (B + s * dqs) i hi
    have r4 : 0 ≤ dz m.p i * rhsSouth (shifted m M s) (B + s * dqn) (B + s * dqs) i :=
      mul_nonneg hz.le (rn i).2
    refine nonneg_of_mul_nonneg_right (a := dz m.p i) ?_ hz
    have goal : dz m.p i * rhsSouth (shifted m M s) (B + s * dqn) (B + s * dqs) i
        ≤ dz m.p i * (row m.p.lm m.v.south.a m.v.south.b m.v.south.c (fun _ => M) i
          + s * rhsSouth m dqn dqs i) := by
      rw [mul_add, mul_left_comm, r1, r2, r3]
      rw [scaled ws hp]
      by_cases h0 : i = 0
      · subst h0
        have hne : (0 : ℕ) ≠ m.p.lm - 1 := by omega
        have h01 : 0 + 1 < m.p.lm := by omega
        rw [flux_const, if_pos h01]
        have key := leftover hb hp hM m.p.foas m.gams m.gamn hp.foas hb.gams m.p.foan hb.gamn hp.foan
          hB hds.south
        have key' := mul_le_mul_of_nonneg_left key (div_pos hdt c1_pos).le
        simp only [gamFroFactor, dz_zero, if_neg hne, if_true, sci1, denom]
        rw [one_mul]
        rw [mul_comm m.gamn m.gams] at key'
        simp only [if_neg Bool.false_ne_true, mul_comm m.gamn m.gams]
        generalize m.gams * m.gamn - blm m.p * blm m.p = D at *
        have eg : m.p.mixed * (m.p.rlamdo * (1 - m.p.foas * m.gamn / D) * dt m.p / (c1 * m.p.mixed))
            = dt m.p / c1 * (m.p.rlamdo * (1 - m.p.foas * m.gamn / D)) := by field_simp
        have ew : dt m.p / c1 * (M * ((1 - m.p.cpi) * c1 * (ws / year)))
            = M * ((1 - m.p.cpi) * (dt m.p * (ws / year))) := by field_simp
        rw [ew] at key'
        rw [eg]
        generalize m.p.rlamdo * (1 - m.p.foas * m.gamn / D) = X at *
        generalize dt m.p / c1 = K at *
        generalize dt m.p * (ws / year) = u at *
        ring_nf at key' ⊢
        linarith
      · rw [flux_const, flux_const, if_pos (by omega : i - 1 + 1 < m.p.lm)]
        have hu0 : 0 ≤ M * ((1 - m.p.cpi) * (dt m.p * (ws / year))) := by
          have h3 := hds.sinking
          have h4 := hds.ordered.upward
          have h5 : (0 : ℝ) < year := by unfold year; norm_num
          have h6 : 0 ≤ dt m.p * (ws / year) := mul_nonneg hdt.le (div_nonneg h4 h5.le)
          exact mul_nonneg hM.le (mul_nonneg (by linarith) h6)
        simp only [if_neg h0]
        by_cases hlst : i = m.p.lm - 1
        · rw [if_neg (by omega : ¬ i + 1 < m.p.lm), if_pos hlst, if_pos hlst]
          ring_nf at hu0 ⊢
          linarith
        · rw [if_pos (by omega : i + 1 < m.p.lm), if_neg hlst, if_neg hlst]
          ring_nf
          exact le_rfl
    linarith
  exact fun i hi => ⟨n1 i hi, n2 i hi⟩

omit hM hu hds in
include hM hdn in
theorem air_bound {s dqn dqs x y : ℝ} (hn : 0 ≤ B + s * dqn) (hso : 0 ≤ B + s * dqs)
    (hx : 0 ≤ M + s * x) (hy : 0 ≤ M + s * y) :
    0 ≤ M + s * airNorth m dqn dqs x y ∧ 0 ≤ M + s * airSouth m dqn dqs x y := by
  have hB := spare_nonneg hp hdn
  have hB' : B ≤ m.rlamda * M := by
    have : B / M ≤ m.rlamda := by linarith
    rwa [div_le_iff₀ hM] at this
  have h := air_nonneg hb hp (dqn := m.rlamda * M + s * dqn) (dqs := m.rlamda * M + s * dqs)
    (by linarith) (by linarith) hx hy
  have h0 := hp.rlamdo.ne'
  have h2 := (denom_pos hb hp).ne'
  have e : m.rlamda = m.p.rlamdo * (m.gamn - m.p.foan - blm m.p) := by
    rw [hb.gamn]; field_simp; ring
  have e' : m.p.foas = m.p.foan + m.gams - m.gamn := by rw [hb.gamn, hb.gams]; ring
  have e1 : airNorth m (m.rlamda * M + s * dqn) (m.rlamda * M + s * dqs) (M + s * x) (M + s * y)
      = M + s * airNorth m dqn dqs x y := by
    rw [airNorth_eq hb hp, airNorth_eq hb hp, e, e']
    field_simp
    unfold denom
    rw [sci1]
    ring
  have e2 : airSouth m (m.rlamda * M + s * dqn) (m.rlamda * M + s * dqs) (M + s * x) (M + s * y)
      = M + s * airSouth m dqn dqs x y := by
    rw [airSouth_eq hb hp, airSouth_eq hb hp, e, e']
    field_simp
    unfold denom
    rw [sci1]
    ring
  rwa [e1, e2] at h

end

/-- `|x| ≤ M` in the form the comparison uses. -/
theorem abs_iff {M x : ℝ} : |x| ≤ M ↔ 0 ≤ M + 1 * x ∧ 0 ≤ M + -1 * x := by
  rw [abs_le]; constructor <;> rintro ⟨h1, h2⟩ <;> constructor <;> linarith

theorem ramp_bound {n : ℤ} {im : ℕ} (hi : im < n.toNat) {f p v b c : ℝ} (hf : |f| ≤ b) (hp : |p| ≤ b)
    (hv : |v| ≤ c) : |rampForcing n im f p v| ≤ b + c := by
  have e : ∀ s : ℝ, b + c + s * rampForcing n im f p v
      = rampForcing n im (b + s * f) (b + s * p) (c + s * v) := by
    intro s
    unfold rampForcing
    have hn : (n : ℝ) ≠ 0 := by exact_mod_cast (by omega : n ≠ 0)
    simp only [mofInt, sci1]
    ring
  rw [abs_iff] at hf hp hv ⊢
  rw [e, e]
  exact ⟨ramp_nonneg hi hf.1 hp.1 hv.1, ramp_nonneg hi hf.2 hp.2 hv.2⟩

theorem getD_bound {l : List ℝ} {c : ℝ} (hc : 0 ≤ c) (h : ∀ x ∈ l, |x| ≤ c) (k : ℕ) :
    |l.getD k 0| ≤ c := by
  rw [List.getD_eq_getElem?_getD]
  cases e : l[k]? with
  | none => simpa using hc
  | some x => exact h x (List.mem_of_getElem? e)

/-- Sizes of everything a year has accumulated after `k` of `n` sub-steps. -/
structure Small (M d : ℝ) (k : ℕ) (s : Model.UDM.Acc ℝ) : Prop where
  t1n : |s.temp1n| ≤ M
  t1s : |s.temp1s| ≤ M
  mn : |s.tempn| ≤ k / d * M
  ms : |s.temps| ≤ k / d * M
  an : |s.tempn_air| ≤ k / d * M
  as : |s.temps_air| ≤ k / d * M
  sn : |s.tempn_sea| ≤ k / d * M
  ss : |s.temps_sea| ≤ k / d * M

theorem grow {M n a x : ℝ} {k : ℕ} (hn : 0 < n) (ha : |a| ≤ k / n * M) (hx : |x| ≤ M) :
    |a + x / n| ≤ (k + 1 : ℕ) / n * M := by
  have h1 : |x / n| ≤ M / n := by
    rw [abs_div, abs_of_pos hn]; exact div_le_div_of_nonneg_right hx hn.le
  have h2 : ((k + 1 : ℕ) : ℝ) / n * M = k / n * M + M / n := by push_cast; field_simp
  rw [h2]
  exact (abs_add_le _ _).trans (add_le_add ha h1)

theorem mix_bound {M f x y : ℝ} (h0 : 0 ≤ f) (h1 : f ≤ 1) (hx : |x| ≤ M) (hy : |y| ≤ M) :
    |f * x + (1 - f) * y| ≤ M := by
  rw [abs_le] at *
  constructor <;> nlinarith [hx.1, hx.2, hy.1, hy.2]

theorem subSteps_bound {solve : Solver ℝ} (hs : Exact solve) {m : Model ℝ} (hr : Ready m)
    (hp : Phys m.p m.rlamda) {M b c : ℝ} (hM : 0 < M) (hc : 0 ≤ c)
    (hd : ∀ t, |t| ≤ M → Damped m.p m.rlamda (b + c) M (upwelling m.p t))
    {fn fs : ℝ} {vn vs : List ℝ} (h0 : vn ≠ []) (h1 : vn.length ≤ vs.length)
    (hfn : |fn| ≤ b) (hfs : |fs| ≤ b) (hvn : ∀ x ∈ vn, |x| ≤ c) (hvs : ∀ x ∈ vs, |x| ≤ c)
    (hpn : |m.prevFn| ≤ b) (hps : |m.prevFs| ≤ b) (htn : ∀ i, |m.tn i| ≤ M) (hts : ∀ i, |m.ts i| ≤ M) :
    ∃ r, subSteps solve m fn fs vn vs = .ok r ∧ SameYear m r.1 ∧ (∀ i, |r.1.tn i| ≤ M) ∧
      (∀ i, |r.1.ts i| ≤ M) ∧ Small M m.p.ldtime m.p.ldtime.toNat r.2 := by
  have hl : (0 : ℝ) < m.p.ldtime := by
    have := hp.ldtime; exact_mod_cast (by omega : 0 < m.p.ldtime)
  unfold subSteps
  refine foldlM_range_ok (fun k (s : Model ℝ × Model.UDM.Acc ℝ) => SameYear m s.1 ∧
    (∀ i, |s.1.tn i| ≤ M) ∧ (∀ i, |s.1.ts i| ≤ M) ∧ Small M m.p.ldtime k s.2) ?_ ?_
  · refine ⟨SameYear.refl hr, htn, hts, ?_⟩
    constructor <;> simp [Acc.zero, sci0, hM.le]
  · rintro k hk b' ⟨sy, bn, bs, ba⟩
    have dn := hd _ ba.t1n
    have ds := hd _ ba.t1s
    have hp' : Phys b'.1.p b'.1.rlamda := by rw [sy.p, sy.rlamda]; exact hp
    obtain ⟨b2, hb⟩ := subStep_exists (solve := solve) hs sy.ready hp'
      (by rw [sy.p]; exact dn.ordered) (by rw [sy.p]; exact ds.ordered) (fn := fn) (fs := fs) h0 h1 k
    refine ⟨b2, hb, ?_⟩
    obtain ⟨tn, ts, m1, hm1, hS1, hS2, hz, e1, e2⟩ := subStep_spec hs sy.ready hb
    have hn : |(applied b'.1 fn fs vn vs k).1| ≤ b + c := by
      rw [sy.applied]; exact ramp_bound hk hfn hpn (getD_bound hc hvn _)
    have hso : |(applied b'.1 fn fs vn vs k).2| ≤ b + c := by
      rw [sy.applied]; exact ramp_bound hk hfs hps (getD_bound hc hvs _)
    obtain ⟨hr1, hu, _, _, q1, q2, _⟩ := refresh_spec sy.ready b'.2.temp1n b'.2.temp1s
    have sm := sy.trans (SameYear.refresh sy.ready b'.2.temp1n b'.2.temp1s)
    rw [← hm1] at hr1 hu sm q1 q2
    have hp1 : Phys m1.p m1.rlamda := by rw [sm.p, sm.rlamda]; exact hp
    rw [wcfac_eq, wcfac_eq, sy.p, ← sm.p] at hu
    rw [← sm.p, ← sm.rlamda] at dn ds
    have key : ∀ s : ℝ, (∀ x y : ℝ, |x| ≤ y → 0 ≤ y + s * x) → (∀ i, 0 ≤ M + s * tn i) ∧
        (∀ i, 0 ≤ M + s * ts i) ∧
        0 ≤ M + s * airNorth m1 (applied b'.1 fn fs vn vs k).1 (applied b'.1 fn fs vn vs k).2 (tn 0) (ts 0) ∧
        0 ≤ M + s * airSouth m1 (applied b'.1 fn fs vn vs k).1 (applied b'.1 fn fs vn vs k).2
          (tn 0) (ts 0) := by
      intro s hs'
      have sb := solution_bound hr1.base hp1 hu hM dn ds (hs' _ _ hn) (hs' _ _ hso)
        (fun i => hs' _ _ (by rw [q1]; exact bn i)) (fun i => hs' _ _ (by rw [q2]; exact bs i)) hS1 hS2
      have N1 : ∀ i, 0 ≤ M + s * tn i := fun i => by
        by_cases hi : i < m1.p.lm
        · exact (sb i hi).1
        · rw [(hz i (by omega)).1]; linarith
      have N2 : ∀ i, 0 ≤ M + s * ts i := fun i => by
        by_cases hi : i < m1.p.lm
        · exact (sb i hi).2
        · rw [(hz i (by omega)).2]; linarith
      exact ⟨N1, N2, air_bound hr1.base hp1 hM dn (hs' _ _ hn) (hs' _ _ hso) (N1 0) (N2 0)⟩
    have kp := key 1 (fun x y h => (abs_iff.1 h).1)
    have km := key (-1) (fun x y h => (abs_iff.1 h).2)
    have N1 : ∀ i, |tn i| ≤ M := fun i => abs_iff.2 ⟨kp.1 i, km.1 i⟩
    have N2 : ∀ i, |ts i| ≤ M := fun i => abs_iff.2 ⟨kp.2.1 i, km.2.1 i⟩
    have A1 := abs_iff.2 ⟨kp.2.2.1, km.2.2.1⟩
    have A2 := abs_iff.2 ⟨kp.2.2.2, km.2.2.2⟩
    have el : m1.p.ldtime = m.p.ldtime := by rw [sm.p]
    refine ⟨sy.trans (SameYear.subStep hs sy.ready hb), ?_, ?_, ?_⟩
    · rw [e1]; exact N1
    · rw [e1]; exact N2
    · rw [e2]
      refine ⟨?_, ?_, ?_, ?_, ?_, ?_, ?_, ?_⟩ <;> simp only [accumulate, mofInt, el, sci1]
      · exact N1 0
      · exact N2 0
      · exact grow hl ba.mn (mix_bound hp1.foan.le dn.oceanNorth (N1 0) A1)
      · exact grow hl ba.ms (mix_bound hp1.foas.le dn.oceanSouth (N2 0) A2)
      · exact grow hl ba.an A1
      · exact grow hl ba.as A2
      · exact grow hl ba.sn (N1 0)
      · exact grow hl ba.ss (N2 0)

/-- Every temperature of a year's output is at most `M` in absolute value. -/
structure Bounded (M : ℝ) (o : Out ℝ) : Prop where
  layers : ∀ i, |o.tn i| ≤ M ∧ |o.ts i| ≤ M
  surface : |o.dtemp| ≤ M ∧ |o.dtempnh| ≤ M ∧ |o.dtempsh| ≤ M
  air : |o.dtemp_air| ≤ M ∧ |o.dtempnh_air| ≤ M ∧ |o.dtempsh_air| ≤ M
  sea : |o.dtemp_sea| ≤ M ∧ |o.dtempnh_sea| ≤ M ∧ |o.dtempsh_sea| ≤ M

theorem half {M x y : ℝ} (hx : |x| ≤ M) (hy : |y| ≤ M) : |(x + y) / 2.0| ≤ M := by
  rw [sci2]
  rw [abs_le] at *
  constructor <;> linarith [hx.1, hx.2, hy.1, hy.2]

theorem budget_bound {solve : Solver ℝ} (hs : Exact solve) {m : Model ℝ} (hr : Ready m)
    (hp : Phys m.p m.rlamda) (h7 : Deep700 m.p) {M b c : ℝ} (hM : 0 < M) (hc : 0 ≤ c)
    (hd : ∀ t, |t| ≤ M → Damped m.p m.rlamda (b + c) M (upwelling m.p t))
    {fn fs : ℝ} {vn vs : List ℝ} (h0 : vn ≠ []) (h1 : vn.length ≤ vs.length)
    (hfn : |fn| ≤ b) (hfs : |fs| ≤ b) (hvn : ∀ x ∈ vn, |x| ≤ c) (hvs : ∀ x ∈ vs, |x| ≤ c)
    (hpn : |m.prevFn| ≤ b) (hps : |m.prevFs| ≤ b) (htn : ∀ i, |m.tn i| ≤ M) (hts : ∀ i, |m.ts i| ≤ M) :
    ∃ o m', energyBudget solve m fn fs vn vs = .ok (o, m') ∧ Bounded M o := by
  obtain ⟨r, e, sy, N1, N2, S⟩ := subSteps_bound hs hr hp hM hc hd h0 h1 hfn hfs hvn hvs hpn hps htn hts
  have hn : (m.p.ldtime : ℝ) ≠ 0 := ldtime_ne hp
  have one : ((m.p.ldtime.toNat : ℕ) : ℝ) / m.p.ldtime * M = M := by
    have : ((m.p.ldtime.toNat : ℕ) : ℝ) = m.p.ldtime := by
      have h2 := hp.ldtime
      have : ((m.p.ldtime.toNat : ℕ) : ℤ) = m.p.ldtime := by omega
      exact_mod_cast this
    rw [this]; field_simp
  obtain ⟨s1, s2, s3, s4, s5, s6, s7, s8⟩ := S
  rw [one] at s3 s4 s5 s6 s7 s8
  unfold energyBudget
  rw [e, bind_ok]
  simp only
  obtain ⟨q, hq⟩ := oceanTemperature_ok (m := { r.1 with prevFn := fn, prevFs := fs })
    (by show Deep700 r.1.p; rw [sy.p]; exact h7)
  rw [hq, bind_ok]
  refine ⟨_, _, rfl, ⟨fun i => ⟨N1 i, N2 i⟩, ⟨half s3 s4, s3, s4⟩, ⟨half s5 s6, s5, s6⟩,
    ⟨half s7 s8, s7, s8⟩⟩⟩

/-- **C78.** If the forcing of every year stays within ±`b` (ordinary) and ±`v` (volcanic), and the
feedback is strong enough for `b + v` at every upwelling rate that surface temperatures within ±`M`
produce, then no year of the history fails and every temperature reported stays within ±`M`. The
upwelling may depend on temperature. -/
theorem C78_bounded {solve : Solver ℝ} (hs : Exact solve) {p : Pams ℝ} (hp : Physical p)
    (h7 : Deep700 p) {m0 : Model ℝ} (hc : create p = .ok m0) {M b v : ℝ} (hM : 0 < M) (hb : 0 ≤ b)
    (hv : 0 ≤ v) (ys : List (Year ℝ)) (hr : ∀ y ∈ ys, Readable y) (hw : ∀ y ∈ ys, Within b v y)
    (hf : ∀ y ∈ ys, 0 < feedback p y.w_aero)
    (hd : ∀ y ∈ ys, ∀ t, |t| ≤ M → Damped p (feedback p y.w_aero) (b + v) M (upwelling p t)) :
    ∃ outs m, run solve m0 ys = .ok (outs, m) ∧ outs.length = ys.length ∧
      ∀ o ∈ outs, Bounded M o := by
  rw [create_ok hc]
  induction ys using List.reverseRecOn with
  | nil => exact ⟨[], init p, rfl, rfl, by simp⟩
  | append_singleton ys y ih =>
    obtain ⟨outs, m, h, hl, hO⟩ := ih (fun z hz => hr z (by simp [hz])) (fun z hz => hw z (by simp [hz]))
      (fun z hz => hf z (by simp [hz])) (fun z hz => hd z (by simp [hz]))
    have a := run_after hs h
    have hp' := a.phys hp (hf y (by simp))
    obtain ⟨f1, f2, f3, f4, f5⟩ := setFeedback_fields m y.w_aero
    have e := f1.trans a.pams
    have hwy := hw y (by simp)
    have T : ∀ i, |m.tn i| ≤ M ∧ |m.ts i| ≤ M := by
      intro i
      rw [a.tn, a.ts]
      cases el : outs.getLast? with
      | none => simp [hM.le]
      | some x => exact (hO x (List.mem_of_getLast? el)).layers i
    have B : ∀ f : Year ℝ → ℝ, (∀ z ∈ ys, |f z| ≤ b) → |before ys f| ≤ b := by
      intro f hfz
      unfold before
      cases el : ys.getLast? with
      | none => simpa using hb
      | some x => exact hfz x (List.mem_of_getLast? el)
    obtain ⟨o, m', h', ho⟩ := budget_bound (solve := solve) hs (setFeedback_ready a.ready y.w_aero) hp'
      (by rw [e]; exact h7) hM hv (by rw [e, a.feedback]; exact hd y (by simp))
      (hr y (by simp)).north (hr y (by simp)).south hwy.north hwy.south hwy.volcNorth hwy.volcSouth
      (by rw [f4, a.prevFn]; exact B _ fun z hz => (hw z (by simp [hz])).north)
      (by rw [f5, a.prevFs]; exact B _ fun z hz => (hw z (by simp [hz])).south)
      (by rw [f2]; exact fun i => (T i).1) (by rw [f3]; exact fun i => (T i).2)
    refine ⟨outs ++ [o], m', run_snoc.2 ⟨outs, m, o, h, h', rfl⟩, by simp [hl], ?_⟩
    intro o' ho'
    rw [List.mem_append, List.mem_singleton] at ho'
    rcases ho' with ho' | rfl
    · exact hO o' ho'
    · exact ho

/-! ## The default parameters -/

/-- The default parameters (upwelling_diffusion_model.py:111-132), threshold temperature 7 K. -/
noncomputable def usualPams : Pams ℝ := { flatPams with threstemp := 7 }

theorem usual_physical : Physical usualPams := by
  constructor <;> simp only [usualPams, flatPams] <;> norm_num
theorem usual_deep : Deep700 usualPams := ⟨flat_deep.shallow, flat_deep.reach⟩
theorem usual_created : create usualPams = .ok (init usualPams) :=
  create_of usual_physical (by simp only [usualPams, flatPams]; norm_num)
theorem usual_feedback (w : ℝ) : 0 < feedback usualPams w := flat_feedback w

/-- Twelve W/m² cannot move the default ocean by more than ten kelvin. -/
theorem usual_damped (w t : ℝ) (ht : |t| ≤ 10) :
    Damped usualPams (feedback usualPams w) (10 + 2) 10 (upwelling usualPams t) := by
  have e : upwelling usualPams t = 2.2 * (1 - 0.3 * t / 7) := by
    simp only [upwelling, usualPams, flatPams]; norm_num
  rw [abs_le] at ht
  rw [e]
  have h1 : 0 ≤ 2.2 * (1 - 0.3 * t / 7) := by linarith
  have h2 : 2.2 * (1 - 0.3 * t / 7) ≤ 3.15 := by linarith
  generalize 2.2 * (1 - 0.3 * t / 7) = u at h1 h2
  refine ⟨⟨h1, ?_, ?_, ?_⟩, ⟨?_, ?_, ?_, ?_, ?_, ?_⟩, ?_, ?_, ?_, ?_, ?_⟩ <;>
    simp only [usualPams, flatPams, year, capacity, feedback] <;> norm_num <;> linarith

/-- Any number of years of up to 10 W/m² of forcing, with volcanoes, with the default parameters. -/
example (n : ℕ) : ∃ outs m, run exactSolver (init usualPams)
    (List.replicate n ⟨0, 10, -3, List.replicate 12 (-2), List.replicate 12 1⟩) = .ok (outs, m) ∧
    outs.length = n ∧ ∀ o ∈ outs, |o.dtemp| ≤ 10 ∧ ∀ i, |o.tn i| ≤ 10 := by
  obtain ⟨outs, m, h, hl, hO⟩ := C78_bounded exactSolver_exact usual_physical usual_deep usual_created
    (M := 10) (b := 10) (v := 2) (by norm_num) (by norm_num) (by norm_num)
    (List.replicate n ⟨0, 10, -3, List.replicate 12 (-2), List.replicate 12 1⟩)
    (fun y hy => by rw [List.eq_of_mem_replicate hy]; constructor <;> simp)
    (fun y hy => by
      rw [List.eq_of_mem_replicate hy]
      constructor <;> simp only [List.mem_replicate, and_imp] <;> norm_num)
    (fun y _ => usual_feedback _) (fun y _ => usual_damped _)
  exact ⟨outs, m, h, by simpa using hl, fun o ho => ⟨(hO o ho).surface.1, fun i => ((hO o ho).layers i).1⟩⟩

end Verif.Props.C78
