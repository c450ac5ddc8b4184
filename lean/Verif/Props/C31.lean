import Verif.Props.C37_C38_C39

/-!
# C31: volcanic forcing in the diffusion model

The two-layer half is in `Verif/Props/C29_C32.lean`. In the diffusion model a volcanic series acts in
the sub-step it is given for, an ordinary forcing is ramped up over the year. So the property holds
once the ordinary forcing is written out month by month, and fails for a value held all year.
-/

namespace Verif.Props.C31
open Verif.Py Verif.Model.UDM Verif.Spec.Tridiag Verif.Spec.Diffusion Verif.Lemmas Verif.Lemmas.UDM
  Verif.Lemmas.Tridiag Verif.Props.C35 Verif.Props.C36 Verif.Props.C33_C34
open Finset (range)

/-- The `n` monthly values of a forcing rising linearly from `old` to `new`, plus a volcanic
series. -/
noncomputable def monthly (n : ℕ) (old new : ℝ) (volc : List ℝ) : List ℝ :=
  (List.range n).map fun k =>
    ((k + 1 : ℕ) : ℝ) / n * new + (1 - ((k + 1 : ℕ) : ℝ) / n) * old + volc.getD k 0

/-- The same forcing history with everything supplied as volcanic forcing: `old`, `old'` are the
northern and southern forcing of the year before. -/
noncomputable def asVolcanic (n : ℕ) (old old' : ℝ) : List (Year ℝ) → List (Year ℝ)
  | [] => []
  | y :: ys =>
    { w_aero := y.w_aero, fn := 0, fs := 0, vn := monthly n old y.fn y.vn,
      vs := monthly n old' y.fs y.vs } :: asVolcanic n y.fn y.fs ys

/-- Two years' outputs show the same temperatures and heat contents. -/
structure SameResponse (o o' : Out ℝ) : Prop where
  dtemp : o.dtemp = o'.dtemp
  dtempnh : o.dtempnh = o'.dtempnh
  dtempsh : o.dtempsh = o'.dtempsh
  tn : o.tn = o'.tn
  ts : o.ts = o'.ts
  dtemp_air : o.dtemp_air = o'.dtemp_air
  dtempnh_air : o.dtempnh_air = o'.dtempnh_air
  dtempsh_air : o.dtempsh_air = o'.dtempsh_air
  dtemp_sea : o.dtemp_sea = o'.dtemp_sea
  dtempnh_sea : o.dtempnh_sea = o'.dtempnh_sea
  dtempsh_sea : o.dtempsh_sea = o'.dtempsh_sea
  OHC700 : o.OHC700 = o'.OHC700
  OHCTOT : o.OHCTOT = o'.OHCTOT

theorem volcAt_month {n : ℕ} {v s : List ℝ} (hv : v.length = n) (hs : s.length = n) {im : ℕ}
    (him : im < n) : volcAt v s im = .ok (s.getD im 0) := by
  unfold volcAt
  rw [hv, if_neg (by omega), Nat.mod_eq_of_lt him, List.getD_eq_getElem?_getD,
    List.getElem?_eq_getElem (by omega)]
  rfl

theorem monthly_getD {n im : ℕ} (him : im < n) (old new : ℝ) (volc : List ℝ) :
    (monthly n old new volc).getD im 0 = rampForcing (n : ℤ) im new old (volc.getD im 0) := by
  unfold monthly rampForcing
  rw [List.getD_eq_getElem?_getD, List.getElem?_map, List.getElem?_range him]
  simp only [Option.map_some, Option.getD_some, mofInt, sci1]
  push_cast
  ring

theorem ramp_volc (n : ℤ) (im : ℕ) (x : ℝ) : rampForcing n im (0 : ℝ) 0 x = x := by
  unfold rampForcing; simp

theorem refresh_put (m : Model ℝ) (tn ts : ℕ → ℝ) (x y a b : ℝ) :
    refresh (put m tn ts x y) a b = put (refresh m a b) tn ts x y := by
  unfold refresh put
  simp only
  split <;> rfl

/-- The object with last year's forcing forgotten. -/
def forget (m : Model ℝ) : Model ℝ := put m m.tn m.ts 0 0

theorem subStep_volcanic {solve : Solver ℝ} {n : ℕ} {st st' : Model ℝ × Model.UDM.Acc ℝ}
    (hn : st.1.p.ldtime = n) {fn fs : ℝ} {vn vs : List ℝ} (hvn : vn.length = n) (hvs : vs.length = n)
    {im : ℕ} (him : im < n) (h : subStep solve fn fs vn vs st im = .ok st') :
    subStep solve 0 0 (monthly n st.1.prevFn fn vn) (monthly n st.1.prevFs fs vs)
      (forget st.1, st.2) im = .ok (forget st'.1, st'.2) ∧ st'.1.p = st.1.p ∧
      st'.1.prevFn = st.1.prevFn ∧ st'.1.prevFs = st.1.prevFs := by
  obtain ⟨r1, r2, r3, r4⟩ := refresh_temps st.1 st.2.temp1n st.2.temp1s
  have r5 : (refresh st.1 st.2.temp1n st.2.temp1s).p = st.1.p := by
    unfold refresh; split <;> rfl
  have l1 : ∀ a b (v : List ℝ), (monthly n a b v).length = n := fun a b v => by simp [monthly]
  unfold subStep at h ⊢
  simp only [bind_eq_ok, pure_ok, Except.ok.injEq] at h
  obtain ⟨vN, h1, vS, h2, tn, h3, ts, h4, h5⟩ := h
  rw [volcAt_month hvn hvn him] at h1
  rw [volcAt_month hvn hvs him] at h2
  cases h1; cases h2
  have r6 : (refresh st.1 st.2.temp1n st.2.temp1s).p.ldtime = n := by rw [r5]; exact hn
  have hF : refresh (forget st.1) st.2.temp1n st.2.temp1s
      = forget (refresh st.1 st.2.temp1n st.2.temp1s) := by
    unfold forget; rw [refresh_put, r1, r2]
  rw [r6] at h3 h4 h5
  rw [volcAt_month (l1 _ _ _) (l1 _ _ _) him, bind_ok, volcAt_month (l1 _ _ _) (l1 _ _ _) him, bind_ok,
    monthly_getD him, monthly_getD him]
  simp only [hF]
  generalize refresh st.1 st.2.temp1n st.2.temp1s = M at *
  have g1 : (forget M).prevFn = 0 := rfl
  have g2 : (forget M).prevFs = 0 := rfl
  rw [g1, g2, ramp_volc, ramp_volc, ← r3, ← r4, ← r5]
  have k3 : solve (forget M).p.lm (forget M).v.north.a (forget M).v.north.b (forget M).v.north.c
      (rhsNorth (forget M) (rampForcing (n : ℤ) im fn M.prevFn (vn.getD im 0))
        (rampForcing (n : ℤ) im fs M.prevFs (vs.getD im 0))) = .ok tn := h3
  have k4 : solve (forget M).p.lm (forget M).v.south.a (forget M).v.south.b (forget M).v.south.c
      (rhsSouth (forget M) (rampForcing (n : ℤ) im fn M.prevFn (vn.getD im 0))
        (rampForcing (n : ℤ) im fs M.prevFs (vs.getD im 0))) = .ok ts := h4
  rw [k3, bind_ok, k4, bind_ok, ← h5]
  exact ⟨rfl, rfl, rfl, rfl⟩

theorem subSteps_volcanic {solve : Solver ℝ} {n : ℕ} {m : Model ℝ} (hn : m.p.ldtime = n) {fn fs : ℝ}
    {vn vs : List ℝ} (hvn : vn.length = n) (hvs : vs.length = n) {r : Model ℝ × Model.UDM.Acc ℝ}
    (h : subSteps solve m fn fs vn vs = .ok r) :
    subSteps solve (forget m) 0 0 (monthly n m.prevFn fn vn) (monthly n m.prevFs fs vs)
      = .ok (forget r.1, r.2) ∧ r.1.p = m.p := by
  have hl : m.p.ldtime.toNat = n := by rw [hn]; rfl
  have hl' : (forget m).p.ldtime.toNat = n := hl
  unfold subSteps at h ⊢
  rw [hl] at h; rw [hl']
  have : ∀ k ≤ n, ∀ s, (List.range k).foldlM (subStep solve fn fs vn vs) (m, Acc.zero) = .ok s →
      (List.range k).foldlM (subStep solve 0 0 (monthly n m.prevFn fn vn) (monthly n m.prevFs fs vs))
        (forget m, Acc.zero) = .ok (forget s.1, s.2) ∧ s.1.p = m.p ∧ s.1.prevFn = m.prevFn ∧
        s.1.prevFs = m.prevFs := by
    intro k
    induction k with
    | zero =>
      intro _ s hs
      rw [List.range_zero, Model.Handler.foldlM_nil_ok] at hs
      subst hs
      exact ⟨rfl, rfl, rfl, rfl⟩
    | succ k ih =>
      intro hk s hs
      rw [List.range_succ, List.foldlM_append, bind_eq_ok] at hs
      obtain ⟨d, hd, hs⟩ := hs
      obtain ⟨b', h1, h2⟩ := Model.Handler.foldlM_cons_ok.1 hs
      rw [Model.Handler.foldlM_nil_ok] at h2
      subst h2
      obtain ⟨i1, i2, i3, i4⟩ := ih (by omega) d hd
      obtain ⟨j1, j2, j3, j4⟩ := subStep_volcanic (by rw [i2]; exact hn) hvn hvs (by omega) h1
      rw [i3, i4] at j1
      refine ⟨?_, j2.trans i2, j3.trans i3, j4.trans i4⟩
      rw [List.range_succ, List.foldlM_append, i1, bind_ok, List.foldlM_cons, j1, bind_ok,
        List.foldlM_nil]
      rfl
  obtain ⟨t1, t2, _⟩ := this n le_rfl r h
  exact ⟨t1, t2⟩

theorem energyBudget_volcanic {solve : Solver ℝ} {n : ℕ} {m : Model ℝ} (hn : m.p.ldtime = n)
    {fn fs : ℝ} {vn vs : List ℝ} (hvn : vn.length = n) (hvs : vs.length = n) {o : Out ℝ} {m' : Model ℝ}
    (h : energyBudget solve m fn fs vn vs = .ok (o, m')) :
    ∃ o', energyBudget solve (forget m) 0 0 (monthly n m.prevFn fn vn) (monthly n m.prevFs fs vs)
      = .ok (o', forget m') ∧ SameResponse o o' ∧ m'.p = m.p ∧ m'.prevFn = fn ∧ m'.prevFs = fs := by
  unfold energyBudget at h
  simp only [bind_eq_ok, pure_ok, Except.ok.injEq, Prod.mk.injEq] at h
  obtain ⟨r, h1, ohc, h2, h3, h4⟩ := h
  obtain ⟨s1, s2⟩ := subSteps_volcanic hn hvn hvs h1
  have ho : oceanTemperature { forget r.1 with prevFn := 0, prevFs := 0 } = .ok ohc := h2
  unfold energyBudget
  rw [s1, bind_ok]
  simp only
  rw [ho, bind_ok]
  refine ⟨_, by rw [pure_ok, ← h4]; rfl, ?_, ?_, ?_, ?_⟩
  · rw [← h3]
    constructor <;> rfl
  · rw [← h4]; exact s2
  · rw [← h4]
  · rw [← h4]

theorem run_volcanic {solve : Solver ℝ} {n : ℕ} (ys : List (Year ℝ))
    (hlen : ∀ y ∈ ys, y.vn.length = n ∧ y.vs.length = n) {m0 : Model ℝ} (hn : m0.p.ldtime = n)
    {outs : List (Out ℝ)} {m : Model ℝ} (h : run solve m0 ys = .ok (outs, m)) :
    ∃ outs' m', run solve (forget m0) (asVolcanic n m0.prevFn m0.prevFs ys) = .ok (outs', m') ∧
      List.Forall₂ SameResponse outs outs' := by
  induction ys generalizing m0 outs with
  | nil =>
    obtain ⟨rfl, rfl⟩ := run_nil.1 h
    exact ⟨[], _, run_nil.2 ⟨rfl, rfl⟩, .nil⟩
  | cons y ys ih =>
    obtain ⟨o, m1, os, h1, h2, rfl⟩ := run_cons.1 h
    obtain ⟨f1, _, _, f4, f5⟩ := setFeedback_fields m0 y.w_aero
    obtain ⟨hl1, hl2⟩ := hlen y (by simp)
    obtain ⟨o', e1, e2, e3, e4, e5⟩ := energyBudget_volcanic (by rw [f1]; exact hn) hl1 hl2 h1
    obtain ⟨os', m', i1, i2⟩ := ih (fun z hz => hlen z (by simp [hz])) (by rw [e3, f1]; exact hn) h2
    rw [e4, e5] at i1
    have hF : setFeedback (forget m0) y.w_aero = forget (setFeedback m0 y.w_aero) := by
      unfold forget
      rw [setFeedback_put, (setFeedback_fields m0 y.w_aero).2.1, (setFeedback_fields m0 y.w_aero).2.2.1]
    rw [f4, f5] at e1
    refine ⟨o' :: os', m', run_cons.2 ⟨o', forget m1, os', ?_, i1, rfl⟩, .cons e2 i2⟩
    simp only [hF]
    exact e1

/-- **C31**, diffusion model, every parameter set (also with warming-dependent upwelling) and every
history: supplying the whole forcing as volcanic forcing, month by month, gives the same
temperatures and heat contents as supplying it as ordinary forcing. -/
theorem C31_diffusion_monthly {solve : Solver ℝ} {p : Pams ℝ} {m0 : Model ℝ} (hc : create p = .ok m0)
    {n : ℕ} (hn : p.ldtime = n) (ys : List (Year ℝ))
    (hlen : ∀ y ∈ ys, y.vn.length = n ∧ y.vs.length = n)
    {outs : List (Out ℝ)} {m : Model ℝ} (h : run solve m0 ys = .ok (outs, m)) :
    ∃ outs' m', run solve m0 (asVolcanic n 0 0 ys) = .ok (outs', m') ∧
      List.Forall₂ SameResponse outs outs' := by
  rw [create_ok hc] at h ⊢
  obtain ⟨os, m', h1, h2⟩ := run_volcanic ys hlen (m0 := init p) hn h
  have e1 : (init p).prevFn = 0 := sci0
  have e2 : (init p).prevFs = 0 := sci0
  have e3 : forget (init p) = init p := by
    have : ∀ M : Model ℝ, M.prevFn = 0 → M.prevFs = 0 → forget M = M := by
      rintro ⟨⟩ h1 h2; simp only at h1 h2; subst h1; subst h2; rfl
    exact this _ e1 e2
  rw [e1, e2, e3] at h1
  exact ⟨os, m', h1, h2⟩

/-- Default parameters, twelve volcanic values a year. -/
example (k : ℕ) : ∃ outs m, flatPams.ldtime = (12 : ℕ) ∧
    (∀ y ∈ List.replicate k warmYear, y.vn.length = 12 ∧ y.vs.length = 12) ∧
    run exactSolver (init flatPams) (List.replicate k warmYear) = .ok (outs, m) := by
  obtain ⟨outs, m, h, hl⟩ := C35_run_succeeds exactSolver_exact flat_physical rfl flat_ordered
    flat_deep flat_created (List.replicate k warmYear)
    (fun y hy => by rw [List.eq_of_mem_replicate hy]; constructor <;> simp [warmYear])
    (fun y _ => flat_feedback _)
  exact ⟨outs, m, rfl, fun y hy => by rw [List.eq_of_mem_replicate hy]; simp [warmYear], h⟩

/-- A year with `v` as ordinary forcing, and one with `v` as volcanic forcing in all twelve
months. -/
noncomputable def ordinaryYear (v : ℝ) : Year ℝ := ⟨0, v, v, List.replicate 12 0, List.replicate 12 0⟩
/-- See `ordinaryYear`. -/
noncomputable def volcanicYear (v : ℝ) : Year ℝ := ⟨0, 0, 0, List.replicate 12 v, List.replicate 12 v⟩

/-- **C31** as stated is false for the diffusion model: 1 W/m² held through the first year as
volcanic forcing gives another response than 1 W/m² given as the year's ordinary forcing, which is
ramped up over the year. -/
theorem C31_diffusion_false : ∃ solve, Exact solve ∧ ∃ o o' m m',
    run solve (init flatPams) [ordinaryYear 1] = .ok ([o], m) ∧
    run solve (init flatPams) [volcanicYear 1] = .ok ([o'], m') ∧ ¬ SameResponse o o' := by
  obtain ⟨outs, m, h, hl⟩ := C35_run_succeeds exactSolver_exact flat_physical rfl flat_ordered
    flat_deep flat_created [ordinaryYear 1]
    (fun y hy => by rw [List.mem_singleton.1 hy]; constructor <;> simp [ordinaryYear])
    (fun y _ => flat_feedback _)
  obtain ⟨outs', m', h', hl'⟩ := C35_run_succeeds exactSolver_exact flat_physical rfl flat_ordered
    flat_deep flat_created [volcanicYear 1]
    (fun y hy => by rw [List.mem_singleton.1 hy]; constructor <;> simp [volcanicYear])
    (fun y _ => flat_feedback _)
  obtain ⟨o, rfl⟩ := List.length_eq_one_iff.1 hl
  obtain ⟨o', rfl⟩ := List.length_eq_one_iff.1 hl'
  refine ⟨exactSolver, exactSolver_exact, o, o', m, m', h, h', fun R => ?_⟩
  have B := (C34_surface_balance exactSolver_exact flat_physical flat_created (ys := []) (outs := [])
    h (flat_feedback _)).1
  have B' := (C34_surface_balance exactSolver_exact flat_physical flat_created (ys := []) (outs := [])
    h' (flat_feedback _)).1
  have hl : flatPams.ldtime.toNat = 12 := rfl
  have l1 : (ordinaryYear 1).vn.length = 12 := by simp [ordinaryYear]
  have l2 : (volcanicYear 1).vn.length = 12 := by simp [volcanicYear]
  rw [hl, l1, C34_mean_forcing 12 (by norm_num) _ _ _ l1, R.dtempnh_air, R.dtempnh_sea,
    R.dtempsh_air] at B
  rw [hl, l2, C34_mean_forcing 12 (by norm_num) _ _ _ l2] at B'
  have hw : (ordinaryYear 1).w_aero = (volcanicYear 1).w_aero := rfl
  rw [hw, B'] at B
  simp [ordinaryYear, volcanicYear, before] at B
  norm_num at B

end Verif.Props.C31
