import Verif.Lemmas.UDMRun
import Verif.Props.C78

/-!
# C90 — the deep ocean of the diffusion model, and its upwelling

`DeepStep` and `upwelling` (`Verif/Spec/Diffusion.lean`) are the heat equation of the layers below the mixed layer and the
documented weakening of upwelling with surface warming.

Every sub-step of every year follows the heat equation (`C90_layers_partial`), and from the second sub-step of a year on the
upwelling is the one for the surface temperature reached so far. In the first sub-step of every year it is the one for an
ocean without any warming. With one sub-step per year the configured threshold therefore has no effect at all
(`C90_annual_false`).
-/

namespace Verif.Props.C90
open Verif.Py Verif.Model.UDM Verif.Spec.Diffusion Verif.Spec.Tridiag Verif.Lemmas.UDM Verif.Lemmas
open Finset (range)

variable {solve : Solver ℝ}

theorem dt_eq (p : Pams ℝ) : dt p = year / p.ldtime := by
  simp only [dt, year, mofInt]; norm_num; ring

theorem wcfac_eq (p : Pams ℝ) (t : ℝ) : wcfac p t = upwelling p t / year * (year / p.ldtime) := by
  have hy : (86400.0 * 365.0 : ℝ) = year := by simp only [year]; norm_num
  unfold wcfac upwelling
  rw [dt_eq, secYear, hy, sci1]
  by_cases h : p.threstemp = 0
  · rw [if_pos h, if_pos (by rw [misEq, sci0]; exact h)]
  · rw [if_neg h, if_neg (by rw [misEq, sci0]; exact h)]; ring

theorem flux_eq (p : Pams ℝ) (w : ℝ) (T : ℕ → ℝ) (i : ℕ) :
    flux p (w / year * (year / p.ldtime)) T i = year / p.ldtime * down p w T i := by
  unfold flux down
  rw [show rakapafac p = 2 * (1e-4 * p.akapa) * (year / p.ldtime) by
    unfold rakapafac rakapa; rw [dt_eq]; norm_num]
  split
  · split <;> ring
  · ring

theorem capacity_eq : (c1 : ℝ) = capacity := by unfold c1 capacity; norm_num

/-- One sub-step, northern hemisphere. -/
theorem deep_north {m : Model ℝ} (hb : Base m) {tw sw : ℝ} (hu : Upwell m (wcfac m.p tw) (wcfac m.p sw))
    (hm : 0 < m.p.mixed) (hl : 2 ≤ m.p.lm) (dqn dqs : ℝ) {T : ℕ → ℝ}
    (hT : Solves m.p.lm m.v.north.a m.v.north.b m.v.north.c (rhsNorth m dqn dqs) T) :
    DeepStep m.p (upwelling m.p tw) 1 m.tn m.ts T := by
  intro i h1 hi
  have hz : i ≠ 0 := by omega
  have hd : dz m.p i = 100 := by obtain ⟨j, rfl⟩ : ∃ j, i = j + 1 := ⟨i - 1, by omega⟩; exact dz_succ _ _
  have e := hT i hi
  have e1 := dz_row m.p hm hl (wcfac m.p tw) (gamFroFactor m true) m.p.ocean_efficacy T i hi
  have e2 := dz_rhsNorth hb hu hm hl dqn dqs i hi
  rw [hu.north] at e
  rw [e, e2, hd, if_neg hz, if_neg hz, if_neg hz, wcfac_eq, flux_eq, flux_eq, dt_eq, capacity_eq] at e1
  have e3 : ∀ x : ℝ, (if i = m.p.lm - 1 then m.p.cpi * (upwelling m.p tw / year * (year / m.p.ldtime)) * x else 0) =
      year / m.p.ldtime * (if i = m.p.lm - 1 then m.p.cpi * (upwelling m.p tw / year) * x else 0) := by
    intro x; split <;> ring
  rw [e3] at e1
  linear_combination -e1

/-- One sub-step, southern hemisphere. -/
theorem deep_south {m : Model ℝ} (hb : Base m) {tw sw : ℝ} (hu : Upwell m (wcfac m.p tw) (wcfac m.p sw))
    (hm : 0 < m.p.mixed) (hl : 2 ≤ m.p.lm) (dqn dqs : ℝ) {T : ℕ → ℝ}
    (hT : Solves m.p.lm m.v.south.a m.v.south.b m.v.south.c (rhsSouth m dqn dqs) T) :
    DeepStep m.p (upwelling m.p sw) (m.p.foan / m.p.foas) m.ts m.tn T := by
  intro i h1 hi
  have hz : i ≠ 0 := by omega
  have hd : dz m.p i = 100 := by obtain ⟨j, rfl⟩ : ∃ j, i = j + 1 := ⟨i - 1, by omega⟩; exact dz_succ _ _
  have e := hT i hi
  have e1 := dz_row m.p hm hl (wcfac m.p sw) (gamFroFactor m false) m.p.ocean_efficacy T i hi
  have e2 := dz_rhsSouth hb hu hm hl dqn dqs i hi
  rw [hu.south] at e
  rw [e, e2, hd, if_neg hz, if_neg hz, if_neg hz, wcfac_eq, flux_eq, flux_eq, dt_eq, capacity_eq] at e1
  have e3 : ∀ x : ℝ, (if i = m.p.lm - 1 then m.p.cpi * (upwelling m.p sw / year * (year / m.p.ldtime)) * x else 0) =
      year / m.p.ldtime * (if i = m.p.lm - 1 then m.p.cpi * (upwelling m.p sw / year) * x else 0) := by
    intro x; split <;> ring
  rw [e3] at e1
  unfold fnso at e1
  linear_combination -e1

/-- The sub-steps of a year. -/
theorem subSteps_layers (hs : Exact solve) {m : Model ℝ} (hr : Ready m) (hm : 0 < m.p.mixed) (hl : 2 ≤ m.p.lm)
    {fn fs : ℝ} {vn vs : List ℝ} {r : Model ℝ × Acc ℝ} (h : subSteps solve m fn fs vn vs = .ok r) :
    ∃ T S : ℕ → ℕ → ℝ, T 0 = m.tn ∧ S 0 = m.ts ∧ T m.p.ldtime.toNat = r.1.tn ∧ S m.p.ldtime.toNat = r.1.ts ∧
      r.2.tempn_sea = ∑ k ∈ range m.p.ldtime.toNat, T (k + 1) 0 / m.p.ldtime ∧
      r.2.temps_sea = ∑ k ∈ range m.p.ldtime.toNat, S (k + 1) 0 / m.p.ldtime ∧
      ∀ k < m.p.ldtime.toNat,
        DeepStep m.p (upwelling m.p (if k = 0 then 0 else T k 0)) 1 (T k) (S k) (T (k + 1)) ∧
        DeepStep m.p (upwelling m.p (if k = 0 then 0 else S k 0)) (m.p.foan / m.p.foas) (S k) (T k) (S (k + 1)) := by
  unfold subSteps at h
  refine (fun key => ?_) (foldlM_range_inv (fun n s => SameYear m s.1 ∧
    ∃ T S : ℕ → ℕ → ℝ, T 0 = m.tn ∧ S 0 = m.ts ∧ T n = s.1.tn ∧ S n = s.1.ts ∧
      s.2.tempn_sea = ∑ k ∈ range n, T (k + 1) 0 / m.p.ldtime ∧
      s.2.temps_sea = ∑ k ∈ range n, S (k + 1) 0 / m.p.ldtime ∧
      (∀ k < n,
        DeepStep m.p (upwelling m.p (if k = 0 then 0 else T k 0)) 1 (T k) (S k) (T (k + 1)) ∧
        DeepStep m.p (upwelling m.p (if k = 0 then 0 else S k 0)) (m.p.foan / m.p.foas) (S k) (T k) (S (k + 1))) ∧
      s.2.temp1n = (if n = 0 then 0 else T n 0) ∧ s.2.temp1s = (if n = 0 then 0 else S n 0)) ?_ ?_ h)
  · obtain ⟨-, T, S, h1, h2, h3, h4, h5, h6, h7, -, -⟩ := key
    exact ⟨T, S, h1, h2, h3, h4, h5, h6, h7⟩
  · exact ⟨SameYear.refl hr, fun _ => m.tn, fun _ => m.ts, rfl, rfl, rfl, rfl, by simp [Acc.zero, sci0], by simp [Acc.zero, sci0],
      fun k hk => absurd hk (by omega), by simp [Acc.zero, sci0], by simp [Acc.zero, sci0]⟩
  · rintro n _ b b' ⟨hb, T, S, h1, h2, h3, h4, h5, h6, h7, h8, h9⟩ hk
    obtain ⟨tn, ts, m1, hm1, hS1, hS2, -, e1, e2⟩ := subStep_spec hs hb.ready hk
    obtain ⟨hr1, hu, hp1, -, ht1, ht2, -, -, -, -⟩ := refresh_spec hb.ready b.2.temp1n b.2.temp1s
    rw [← hm1] at hr1 hu ht1 ht2 hp1
    rw [← hp1] at hu
    have hp : m1.p = m.p := hp1.trans hb.p
    have dn := deep_north hr1.base hu (by rw [hp]; exact hm) (by rw [hp]; exact hl) _ _ hS1
    have ds := deep_south hr1.base hu (by rw [hp]; exact hm) (by rw [hp]; exact hl) _ _ hS2
    rw [hp, ht1, ht2, ← h3, ← h4] at dn ds
    rw [h8] at dn
    rw [h9] at ds
    have hU : ∀ (X : ℕ → ℕ → ℝ) (x : ℕ → ℝ), Function.update X (n + 1) x 0 = X 0 :=
      fun X x => Function.update_of_ne (by omega) _ _
    have hk' : ∀ (X : ℕ → ℕ → ℝ) (x : ℕ → ℝ) (k : ℕ), k ≤ n → Function.update X (n + 1) x k = X k :=
      fun X x k hk => Function.update_of_ne (by omega) _ _
    have hn' : ∀ (X : ℕ → ℕ → ℝ) (x : ℕ → ℝ), Function.update X (n + 1) x (n + 1) = x :=
      fun X x => Function.update_self _ _ _
    refine ⟨hb.trans (SameYear.subStep hs hb.ready hk), Function.update T (n + 1) tn, Function.update S (n + 1) ts,
      by rw [hU, h1], by rw [hU, h2], by rw [hn', e1], by rw [hn', e1], ?_, ?_, ?_, ?_, ?_⟩
    · rw [Finset.sum_range_succ, hn', e2]
      simp only [accumulate, mofInt, hp]
      rw [h5]
      congr 1
      exact Finset.sum_congr rfl fun k hk => by rw [hk' _ _ _ (by have := Finset.mem_range.1 hk; omega)]
    · rw [Finset.sum_range_succ, hn', e2]
      simp only [accumulate, mofInt, hp]
      rw [h6]
      congr 1
      exact Finset.sum_congr rfl fun k hk => by rw [hk' _ _ _ (by have := Finset.mem_range.1 hk; omega)]
    · intro k hk2
      rcases Nat.lt_or_eq_of_le (Nat.lt_succ_iff.1 hk2) with hlt | rfl
      · rw [hk' _ _ k (by omega), hk' _ _ k (by omega), hk' _ _ (k + 1) (by omega), hk' _ _ (k + 1) (by omega)]
        exact h7 k hlt
      · rw [hk' _ _ k le_rfl, hk' _ _ k le_rfl, hn', hn']
        exact ⟨dn, ds⟩
    · rw [if_neg (by omega), hn', e2]; rfl
    · rw [if_neg (by omega), hn', e2]; rfl

/-- C90 (all but the upwelling in the first sub-step of a year): in every year of every history, the temperatures of each
layer below the mixed layer go in `ldtime` sub-steps from last year's reported ones to this year's, each sub-step following
the heat equation with the upwelling of the surface temperature reached so far; but in the first sub-step of each year the
upwelling is that of an unwarmed ocean. The reported sea surface temperatures are the means over the sub-steps. -/
theorem C90_layers_partial (hs : Exact solve) {p : Pams ℝ} (hm : 0 < p.mixed) (hl : 2 ≤ p.lm) {ys : List (Year ℝ)}
    {y : Year ℝ} {os : List (Out ℝ)} {o : Out ℝ} {m : Model ℝ}
    (h : run solve (init p) (ys ++ [y]) = .ok (os ++ [o], m)) :
    ∃ T S : ℕ → ℕ → ℝ,
      (∀ i, T 0 i = before os (fun o => o.tn i)) ∧ (∀ i, S 0 i = before os (fun o => o.ts i)) ∧
      T p.ldtime.toNat = o.tn ∧ S p.ldtime.toNat = o.ts ∧
      o.dtempnh_sea = ∑ k ∈ range p.ldtime.toNat, T (k + 1) 0 / p.ldtime ∧
      o.dtempsh_sea = ∑ k ∈ range p.ldtime.toNat, S (k + 1) 0 / p.ldtime ∧
      ∀ k < p.ldtime.toNat,
        DeepStep p (upwelling p (if k = 0 then 0 else T k 0)) 1 (T k) (S k) (T (k + 1)) ∧
        DeepStep p (upwelling p (if k = 0 then 0 else S k 0)) (p.foan / p.foas) (S k) (T k) (S (k + 1)) := by
  obtain ⟨os', m1, o', h1, h2, h3⟩ := run_snoc.1 h
  obtain ⟨rfl, e⟩ := List.append_inj' h3 rfl
  rw [List.cons.injEq] at e
  obtain ⟨rfl, -⟩ := e
  have a := run_after hs h1
  obtain ⟨r, h7, ht, e1, -, -, e3, e4, -, -, -, -, e5, e6, -⟩ := energyBudget_ok h2
  obtain ⟨f1, f2, f3, -, -⟩ := setFeedback_fields m1 y.w_aero
  have hp : (setFeedback m1 y.w_aero).p = p := f1.trans a.pams
  obtain ⟨T, S, g1, g2, g3, g4, g5, g6, g7⟩ := subSteps_layers hs (setFeedback_ready a.ready y.w_aero)
    (by rw [hp]; exact hm) (by rw [hp]; exact hl) e1
  rw [hp] at g3 g4 g5 g6 g7
  refine ⟨T, S, fun i => ?_, fun i => ?_, g3.trans e3.symm, g4.trans e4.symm, e5.trans g5, e6.trans g6, g7⟩
  · rw [g1, f2, a.tn]; unfold before; cases os.getLast? <;> rfl
  · rw [g2, f3, a.ts]; unfold before; cases os.getLast? <;> rfl

/-! ## One sub-step per year -/

/-- The same object with another threshold. -/
def setThreshold (m : Model ℝ) (x : ℝ) : Model ℝ := { m with p := { m.p with threstemp := x } }

theorem wcfac_zero (p : Pams ℝ) (x : ℝ) : wcfac { p with threstemp := x } 0.0 = wcfac p 0.0 := by
  rw [wcfac_eq, wcfac_eq]
  simp only [upwelling, sci0, mul_zero, zero_div, sub_zero, mul_one, ite_self]

theorem setupEbud2_threshold (m : Model ℝ) (x : ℝ) :
    setupEbud2 (setThreshold m x) 0.0 0.0 = setThreshold (setupEbud2 m 0.0 0.0) x := by
  unfold setupEbud2
  simp only [setThreshold, wcfac_zero]
  rfl

theorem setupEbud_threshold (m : Model ℝ) (x : ℝ) :
    setupEbud (setThreshold m x) = setThreshold (setupEbud m) x := by
  exact setupEbud2_threshold { m with
    gamn := (setupEbud m).gamn
    gams := (setupEbud m).gams
    v := { (setupEbud m).v with
      dtrm1n := m.v.dtrm1n, dtrm1s := m.v.dtrm1s, dtmnl2 := m.v.dtmnl2, dtmsl2 := m.v.dtmsl2
      north := m.v.north, south := m.v.south } } x

theorem init_threshold (p : Pams ℝ) (x : ℝ) : init { p with threstemp := x } = setThreshold (init p) x := by
  exact setupEbud_threshold
    { p := p, rlamda := 1.0 / p.lambda, fnx := fnxOf p (1.0 / p.lambda),
      fsx := fsxOf p (1.0 / p.lambda), gamn := 0.0, gams := 0.0, v := noVarying,
      tn := fun _ => 0.0, ts := fun _ => 0.0, prevFn := 0.0, prevFs := 0.0 } x

theorem setFeedback_threshold (m : Model ℝ) (w x : ℝ) :
    setFeedback (setThreshold m x) w = setThreshold (setFeedback m w) x := by
  unfold setFeedback
  show (if isEq m.p.delta_lambda_aero 0.0 then _ else _) = _
  split
  · rfl
  · exact setupEbud_threshold { m with
      rlamda := 1.0 / m.p.lambda + w * m.p.delta_lambda_aero
      fnx := fnxOf m.p (1.0 / m.p.lambda + w * m.p.delta_lambda_aero)
      fsx := fsxOf m.p (1.0 / m.p.lambda + w * m.p.delta_lambda_aero) } x

/-- The coefficients are those of an unwarmed ocean. -/
def Unwarmed (m : Model ℝ) : Prop := setupEbud2 m 0.0 0.0 = m

theorem setupEbud_unwarmed (m : Model ℝ) : Unwarmed (setupEbud m) := rfl

theorem setFeedback_unwarmed {m : Model ℝ} (h : Unwarmed m) (w : ℝ) : Unwarmed (setFeedback m w) := by
  unfold setFeedback
  split
  · exact h
  · rfl

theorem refresh_unwarmed {m : Model ℝ} (h : Unwarmed m) : refresh m 0.0 0.0 = m := by
  unfold refresh
  split
  · exact h
  · rfl

theorem Unwarmed.threshold {m : Model ℝ} (h : Unwarmed m) (x : ℝ) : Unwarmed (setThreshold m x) := by
  unfold Unwarmed at h ⊢
  rw [setupEbud2_threshold, h]

theorem subStep_threshold {m : Model ℝ} (h : Unwarmed m) (fn fs : ℝ) (vn vs : List ℝ) (x : ℝ) :
    subStep solve fn fs vn vs (setThreshold m x, Acc.zero) 0 =
      (subStep solve fn fs vn vs (m, Acc.zero) 0).map (fun r => (setThreshold r.1 x, r.2)) ∧
    ∀ r, subStep solve fn fs vn vs (m, Acc.zero) 0 = .ok r → Unwarmed r.1 ∧ r.1.p = m.p := by
  have e1 : refresh m (Acc.zero : Acc ℝ).temp1n (Acc.zero : Acc ℝ).temp1s = m := refresh_unwarmed h
  have e2 : refresh (setThreshold m x) (Acc.zero : Acc ℝ).temp1n (Acc.zero : Acc ℝ).temp1s = setThreshold m x :=
    refresh_unwarmed (h.threshold x)
  unfold subStep
  simp only [e1, e2]
  constructor
  · cases volcAt vn vn 0 with
    | error _ => rfl
    | ok a =>
      cases volcAt vn vs 0 with
      | error _ => rfl
      | ok b =>
        simp only [bind_ok]
        have hN : rhsNorth (setThreshold m x) (rampForcing (setThreshold m x).p.ldtime 0 fn (setThreshold m x).prevFn a)
            (rampForcing (setThreshold m x).p.ldtime 0 fs (setThreshold m x).prevFs b) =
            rhsNorth m (rampForcing m.p.ldtime 0 fn m.prevFn a) (rampForcing m.p.ldtime 0 fs m.prevFs b) := rfl
        have hS : rhsSouth (setThreshold m x) (rampForcing (setThreshold m x).p.ldtime 0 fn (setThreshold m x).prevFn a)
            (rampForcing (setThreshold m x).p.ldtime 0 fs (setThreshold m x).prevFs b) =
            rhsSouth m (rampForcing m.p.ldtime 0 fn m.prevFn a) (rampForcing m.p.ldtime 0 fs m.prevFs b) := rfl
        rw [hN, hS]
        show (solve m.p.lm m.v.north.a m.v.north.b m.v.north.c _ >>= fun tn =>
          solve m.p.lm m.v.south.a m.v.south.b m.v.south.c _ >>= fun ts => _) = _
        cases solve m.p.lm m.v.north.a m.v.north.b m.v.north.c
            (rhsNorth m (rampForcing m.p.ldtime 0 fn m.prevFn a) (rampForcing m.p.ldtime 0 fs m.prevFs b)) with
        | error _ => rfl
        | ok tn =>
          simp only [bind_ok]
          cases solve m.p.lm m.v.south.a m.v.south.b m.v.south.c
              (rhsSouth m (rampForcing m.p.ldtime 0 fn m.prevFn a) (rampForcing m.p.ldtime 0 fs m.prevFs b)) with
          | error _ => rfl
          | ok ts => rfl
  · intro r hr
    simp only [bind_eq_ok, pure_ok, Except.ok.injEq] at hr
    obtain ⟨_, -, _, -, tn, -, ts, -, rfl⟩ := hr
    refine ⟨?_, rfl⟩
    unfold Unwarmed at h ⊢
    show { setupEbud2 m 0.0 0.0 with tn := tn, ts := ts } = { m with tn := tn, ts := ts }
    rw [h]

theorem energyBudget_threshold {m : Model ℝ} (h : Unwarmed m) (h1 : m.p.ldtime = 1) (fn fs : ℝ) (vn vs : List ℝ) (x : ℝ) :
    energyBudget solve (setThreshold m x) fn fs vn vs =
      (energyBudget solve m fn fs vn vs).map (fun r => (r.1, setThreshold r.2 x)) ∧
    ∀ r, energyBudget solve m fn fs vn vs = .ok r → Unwarmed r.2 ∧ r.2.p.ldtime = 1 := by
  have hsub : ∀ m : Model ℝ, m.p.ldtime = 1 → subSteps solve m fn fs vn vs = subStep solve fn fs vn vs (m, Acc.zero) 0 := by
    intro m h1
    unfold subSteps
    rw [h1]
    show (List.range 1).foldlM _ _ = _
    rw [show List.range 1 = [0] from rfl, List.foldlM_cons]
    cases subStep solve fn fs vn vs (m, Acc.zero) 0 <;> rfl
  obtain ⟨g1, g2⟩ := subStep_threshold (solve := solve) h fn fs vn vs x
  unfold energyBudget
  rw [hsub m h1, hsub (setThreshold m x) h1, g1]
  cases hr : subStep solve fn fs vn vs (m, Acc.zero) 0 with
  | error _ => exact ⟨rfl, fun r hr => by cases hr⟩
  | ok r =>
    obtain ⟨u1, u2⟩ := g2 r hr
    constructor
    · simp only [Except.map, bind_ok]
      have ho : oceanTemperature { setThreshold r.1 x with prevFn := fn, prevFs := fs } =
          oceanTemperature { r.1 with prevFn := fn, prevFs := fs } := rfl
      rw [ho]
      cases oceanTemperature { r.1 with prevFn := fn, prevFs := fs } with
      | error _ => rfl
      | ok q => rfl
    · intro q hq
      simp only [bind_ok, bind_eq_ok, pure_ok, Except.ok.injEq] at hq
      obtain ⟨_, -, rfl⟩ := hq
      refine ⟨?_, by rw [← h1, ← u2]⟩
      unfold Unwarmed at u1 ⊢
      show { setupEbud2 r.1 0.0 0.0 with prevFn := fn, prevFs := fs } = { r.1 with prevFn := fn, prevFs := fs }
      rw [u1]

theorem run_threshold {ys : List (Year ℝ)} (x : ℝ) : ∀ {m : Model ℝ}, Unwarmed m → m.p.ldtime = 1 →
    run solve (setThreshold m x) ys = (run solve m ys).map (fun r => (r.1, setThreshold r.2 x)) := by
  induction ys with
  | nil => intro m _ _; rfl
  | cons y ys ih =>
    intro m h h1
    have hf := setFeedback_unwarmed h y.w_aero
    have hl : (setFeedback m y.w_aero).p.ldtime = 1 := by rw [(setFeedback_fields m y.w_aero).1]; exact h1
    obtain ⟨g1, g2⟩ := energyBudget_threshold (solve := solve) hf hl y.fn y.fs y.vn y.vs x
    unfold run
    rw [setFeedback_threshold, g1]
    cases hr : energyBudget solve (setFeedback m y.w_aero) y.fn y.fs y.vn y.vs with
    | error _ => rfl
    | ok r =>
      obtain ⟨u1, u2⟩ := g2 r hr
      simp only [Except.map, bind_ok]
      rw [ih u1 u2]
      cases run solve r.2 ys with
      | error _ => rfl
      | ok q => rfl

/-- C90 is false with one sub-step per year: whatever the threshold for the weakening of upwelling, every history of years
gives the same outputs as with constant upwelling (or the same exception). -/
theorem C90_annual_false (p : Pams ℝ) (h1 : p.ldtime = 1) (x : ℝ) (ys : List (Year ℝ)) :
    (run solve (init { p with threstemp := x }) ys).map Prod.fst = (run solve (init p) ys).map Prod.fst := by
  have hu : Unwarmed (init p) := setupEbud_unwarmed _
  rw [init_threshold, run_threshold x hu h1]
  cases run solve (init p) ys <;> rfl

/-! ## Concrete cases -/

open Verif.Props.C35 Verif.Props.C78 Verif.Lemmas.Tridiag

/-- Any number of years with the default parameters, whose threshold is 7 K. -/
example (n : ℕ) : ∃ os o m, run exactSolver (init usualPams)
    (List.replicate n ⟨0, 10, -3, List.replicate 12 (-2), List.replicate 12 1⟩ ++
      [⟨0, 10, -3, List.replicate 12 (-2), List.replicate 12 1⟩]) = .ok (os ++ [o], m) ∧ os.length = n ∧
    ∃ T S : ℕ → ℕ → ℝ, T 12 = o.tn ∧
      (∀ i, T 0 i = before os (fun o => o.tn i)) ∧
      ∀ k < 12, k ≠ 0 → DeepStep usualPams (2.2 * (1 - 0.3 * T k 0 / 7)) 1 (T k) (S k) (T (k + 1)) := by
  obtain ⟨outs, m, h, hl, -⟩ := C78_bounded exactSolver_exact usual_physical usual_deep usual_created
    (M := 10) (b := 10) (v := 2) (by norm_num) (by norm_num) (by norm_num)
    (List.replicate (n + 1) ⟨0, 10, -3, List.replicate 12 (-2), List.replicate 12 1⟩)
    (fun y hy => by rw [List.eq_of_mem_replicate hy]; constructor <;> simp)
    (fun y hy => by
      rw [List.eq_of_mem_replicate hy]
      constructor <;> simp only [List.mem_replicate, and_imp] <;> norm_num)
    (fun y _ => usual_feedback _) (fun y _ => usual_damped _)
  rw [List.replicate_succ'] at h
  obtain ⟨os, m1, o, h1, h2, rfl⟩ := run_snoc.1 h
  obtain ⟨T, S, t0, -, t12, -, -, -, hk⟩ := C90_layers_partial exactSolver_exact (p := usualPams)
    (by simp only [usualPams, flatPams]; norm_num) (by simp only [usualPams, flatPams]; norm_num) h
  have e : usualPams.ldtime.toNat = 12 := rfl
  rw [e] at t12 hk
  refine ⟨os, o, m, h, by simpa using hl, T, S, t12, t0, fun k hk1 hk0 => ?_⟩
  have := (hk k hk1).1
  rw [if_neg hk0] at this
  rwa [show upwelling usualPams (T k 0) = 2.2 * (1 - 0.3 * T k 0 / 7) by
    simp only [upwelling, usualPams, flatPams]; norm_num] at this

/-- The default parameters with one step per year and constant upwelling. -/
noncomputable def annualPams : Pams ℝ := { flatPams with ldtime := 1 }

/-- Any number of years with yearly steps: they end, and the threshold does not matter. -/
example (n : ℕ) (x : ℝ) : ∃ outs, outs.length = n ∧
    (run exactSolver (init annualPams) (List.replicate n warmYear)).map Prod.fst = .ok outs ∧
    (run exactSolver (init { annualPams with threstemp := x }) (List.replicate n warmYear)).map Prod.fst = .ok outs := by
  have hp : Physical annualPams := by constructor <;> simp only [annualPams, flatPams] <;> norm_num
  obtain ⟨outs, m, h, hl⟩ := C35_run_succeeds exactSolver_exact hp rfl
    (by constructor <;> simp only [annualPams, flatPams, year] <;> norm_num)
    ⟨flat_deep.shallow, flat_deep.reach⟩
    (create_of hp (by simp only [annualPams, flatPams]; norm_num)) (List.replicate n warmYear)
    (fun y hy => by rw [List.eq_of_mem_replicate hy]; constructor <;> simp [warmYear])
    (fun y _ => flat_feedback _)
  refine ⟨outs, by simpa using hl, by rw [h]; rfl, ?_⟩
  rw [C90_annual_false annualPams rfl x, h]
  rfl

end Verif.Props.C90
