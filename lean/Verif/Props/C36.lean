import Verif.Props.C35

/-!
# C36: the diffusion model is at rest without forcing, and linear without upwelling feedback
-/

namespace Verif.Props.C36
open Verif.Py Verif.Model.UDM Verif.Spec.Tridiag Verif.Spec.Diffusion Verif.Lemmas Verif.Lemmas.UDM
  Verif.Lemmas.Tridiag Verif.Props.C35
open Finset (range)

/-- A year's output with every entry zero. -/
structure AtRest (o : Out ℝ) : Prop where
  dtemp : o.dtemp = 0
  dtempnh : o.dtempnh = 0
  dtempsh : o.dtempsh = 0
  tn : ∀ i, o.tn i = 0
  ts : ∀ i, o.ts i = 0
  dtemp_air : o.dtemp_air = 0
  dtempnh_air : o.dtempnh_air = 0
  dtempsh_air : o.dtempsh_air = 0
  dtemp_sea : o.dtemp_sea = 0
  dtempnh_sea : o.dtempnh_sea = 0
  dtempsh_sea : o.dtempsh_sea = 0
  RIBN : o.RIBN = 0
  RIBS : o.RIBS = 0
  RIB : o.RIB = 0
  OHC700 : o.OHC700 = 0
  OHCTOT : o.OHCTOT = 0
  anomalous_radiation : o.anomalous_radiation = 0

/-- A model at rest. -/
structure Still (m : Model ℝ) : Prop where
  tn : ∀ i, m.tn i = 0
  ts : ∀ i, m.ts i = 0
  prevFn : m.prevFn = 0
  prevFs : m.prevFs = 0

theorem getD_zero {l : List ℝ} (h : ∀ x ∈ l, x = 0) (k : ℕ) : l.getD k 0 = 0 := by
  rw [List.getD_eq_getElem?_getD]
  cases e : l[k]? with
  | none => rfl
  | some x => exact h x (List.mem_of_getElem? e)

theorem sum_zero {l : List ℝ} (h : ∀ x ∈ l, x = 0) : fsum l = 0 := by
  rw [fsum_eq_sum]
  exact List.sum_eq_zero h

theorem mean_zero {l : List ℝ} (h : ∀ x ∈ l, x = 0) : mean l = 0 := by
  unfold mean; rw [sum_zero h]; simp

theorem solve_zero {solve : Solver ℝ} (hs : Exact solve) {n : ℕ} {a b c d T : ℕ → ℝ}
    (h : solve n a b c d = .ok T) (hd : ∀ i, d i = 0) (i : ℕ) : T i = 0 := by
  obtain ⟨h1, h2⟩ := hs.sound _ _ _ _ _ _ h
  by_cases hi : i < n
  · exact hs.regular _ _ _ _ _ _ h T (fun j hj => (h1 j hj).trans (hd j)) i hi
  · exact h2 i (by omega)

theorem refresh_temps (m : Model ℝ) (a b : ℝ) : (refresh m a b).tn = m.tn ∧
    (refresh m a b).ts = m.ts ∧ (refresh m a b).prevFn = m.prevFn ∧
    (refresh m a b).prevFs = m.prevFs := by
  unfold refresh; split <;> exact ⟨rfl, rfl, rfl, rfl⟩

theorem ramp_zero (n : ℤ) (im : ℕ) : rampForcing n im (0 : ℝ) 0 0 = 0 := by
  unfold rampForcing; simp

theorem subStep_rest {solve : Solver ℝ} (hs : Exact solve) {st st' : Model ℝ × Model.UDM.Acc ℝ}
    {vn vs : List ℝ} (hvn : ∀ x ∈ vn, x = 0) (hvs : ∀ x ∈ vs, x = 0) (hm : Still st.1)
    (ha : st.2 = Acc.zero) {im : ℕ} (h : subStep solve 0 0 vn vs st im = .ok st') :
    Still st'.1 ∧ st'.2 = Acc.zero := by
  obtain ⟨r1, r2, r3, r4⟩ := refresh_temps st.1 st.2.temp1n st.2.temp1s
  unfold subStep at h
  simp only [bind_eq_ok, pure_ok, Except.ok.injEq] at h
  obtain ⟨vN, h1, vS, h2, tn, h3, ts, h4, h5⟩ := h
  rw [volcAt_ok h1, volcAt_ok h2, getD_zero hvn, getD_zero hvs, r3, r4, hm.prevFn, hm.prevFs,
    ramp_zero] at h3 h4 h5
  have z1 : ∀ i, tn i = 0 := solve_zero hs h3 fun i => by
    unfold rhsNorth; simp only [r1, r2, hm.tn, hm.ts]; simp [sci0]
  have z2 : ∀ i, ts i = 0 := solve_zero hs h4 fun i => by
    unfold rhsSouth; simp only [r1, r2, hm.tn, hm.ts]; simp [sci0]
  rw [← h5]
  refine ⟨⟨z1, z2, rfl, rfl⟩, ?_⟩
  simp only [accumulate, ha, Acc.zero, airNorth, airSouth, z1, z2]
  simp [sci0]

theorem subSteps_rest {solve : Solver ℝ} (hs : Exact solve) {m : Model ℝ} {vn vs : List ℝ}
    (hvn : ∀ x ∈ vn, x = 0) (hvs : ∀ x ∈ vs, x = 0) (hm : Still m) {r : Model ℝ × Model.UDM.Acc ℝ}
    (h : subSteps solve m 0 0 vn vs = .ok r) : Still r.1 ∧ r.2 = Acc.zero := by
  unfold subSteps at h
  exact foldlM_range_inv (fun _ (s : Model ℝ × Model.UDM.Acc ℝ) => Still s.1 ∧ s.2 = Acc.zero)
    ⟨hm, rfl⟩ (fun k _ b b' hb hk => subStep_rest hs hvn hvs hb.1 hb.2 hk) h

theorem havtemps_rest {m : Model ℝ} (hm : Still m) : ∀ x ∈ havtemps m, x = 0 := by
  intro x hx
  unfold havtemps at hx
  obtain ⟨i, _, rfl⟩ := List.mem_map.1 hx
  unfold havtemp
  rw [hm.tn, hm.ts]; simp

theorem pyIndex_mem {α : Type} {l : List α} {i : Int} {x : α} (h : pyIndex l i = .ok x) : x ∈ l := by
  unfold pyIndex at h
  split at h
  · rename_i y hy
    split at h
    · cases h
    · cases h; exact List.mem_of_getElem? hy
  · cases h

theorem pySlice_mem {α : Type} {l : List α} {i j : Int} {x : α} (h : x ∈ pySlice l i j) : x ∈ l := by
  unfold pySlice at h
  exact List.mem_of_mem_take (List.mem_of_mem_drop h)

theorem energyBudget_rest {solve : Solver ℝ} (hs : Exact solve) {m : Model ℝ} {vn vs : List ℝ}
    (hvn : ∀ x ∈ vn, x = 0) (hvs : ∀ x ∈ vs, x = 0) (hm : Still m) {o : Out ℝ} {m' : Model ℝ}
    (h : energyBudget solve m 0 0 vn vs = .ok (o, m')) : AtRest o ∧ Still m' := by
  unfold energyBudget at h
  simp only [bind_eq_ok, pure_ok, Except.ok.injEq, Prod.mk.injEq] at h
  obtain ⟨r, h1, ohc, h2, h3, h4⟩ := h
  obtain ⟨s1, s2⟩ := subSteps_rest hs hvn hvs hm h1
  have s3 : Still { r.1 with prevFn := 0, prevFs := 0 } := ⟨s1.tn, s1.ts, rfl, rfl⟩
  have z := havtemps_rest s3
  have hA : anomalousRadiation { r.1 with prevFn := 0, prevFs := 0 } m.tn m.ts = 0 := by
    unfold anomalousRadiation
    simp only
    rw [sum_zero]
    · simp
    · intro x hx
      obtain ⟨i, _, rfl⟩ := List.mem_map.1 hx
      simp [s1.tn, s1.ts, hm.tn, hm.ts]
  have hO : ohc = (0, 0) := by
    unfold oceanTemperature at h2
    simp only [bind_eq_ok, pure_ok, Except.ok.injEq] at h2
    obtain ⟨x, hx, h2⟩ := h2
    rw [← h2, z x (pyIndex_mem hx), sum_zero z, sum_zero fun y hy => z y (pySlice_mem hy)]
    simp
  subst hO
  rw [s2, hA, mean_zero hvn, mean_zero hvs] at h3
  refine ⟨?_, h4 ▸ s3⟩
  subst h3
  constructor <;> simp [Acc.zero, sci0, s1.tn, s1.ts]

theorem setFeedback_still {m : Model ℝ} (hm : Still m) (w : ℝ) : Still (setFeedback m w) := by
  obtain ⟨_, f2, f3, f4, f5⟩ := setFeedback_fields m w
  exact ⟨by rw [f2]; exact hm.tn, by rw [f3]; exact hm.ts, by rw [f4]; exact hm.prevFn,
    by rw [f5]; exact hm.prevFs⟩

/-- **C36.** Without forcing everything the model reports stays exactly zero for ever, whatever the
parameters and the aerosol weights. -/
theorem C36_rest {solve : Solver ℝ} (hs : Exact solve) {p : Pams ℝ} {m0 : Model ℝ}
    (hc : create p = .ok m0) (ys : List (Year ℝ)) (hz : ∀ y ∈ ys, NoForcing y)
    {outs : List (Out ℝ)} {m : Model ℝ} (h : run solve m0 ys = .ok (outs, m)) :
    ∀ o ∈ outs, AtRest o := by
  rw [create_ok hc] at h
  have : ∀ m1 : Model ℝ, Still m1 → run solve m1 ys = .ok (outs, m) → ∀ o ∈ outs, AtRest o := by
    clear h hc
    induction ys generalizing outs with
    | nil => intro m1 _ h; obtain ⟨rfl, _⟩ := run_nil.1 h; simp
    | cons y ys ih =>
      intro m1 hm h
      obtain ⟨o, m2, os, h1, h2, rfl⟩ := run_cons.1 h
      have hy := hz y (by simp)
      rw [hy.north, hy.south] at h1
      obtain ⟨e1, e2⟩ := energyBudget_rest hs hy.volcNorth hy.volcSouth (setFeedback_still hm _) h1
      intro o' ho'
      rcases List.mem_cons.1 ho' with rfl | ho'
      · exact e1
      · exact ih (fun z hz' => hz z (by simp [hz'])) m2 e2 h2 o' ho'
  exact this (init p) ⟨fun _ => sci0, fun _ => sci0, sci0, sci0⟩ h

/-- A year without forcing; the default parameters run it any number of times. -/
noncomputable def quietYear : Year ℝ := ⟨0, 0, 0, List.replicate 12 0, List.replicate 12 0⟩

theorem quiet_noForcing : NoForcing quietYear := by
  constructor <;> simp [quietYear]

example (n : ℕ) : ∃ outs m, run exactSolver (init flatPams) (List.replicate n quietYear) = .ok (outs, m)
    ∧ outs.length = n ∧ ∀ o ∈ outs, AtRest o := by
  obtain ⟨outs, m, h, hl⟩ := C35_run_succeeds exactSolver_exact flat_physical rfl flat_ordered
    flat_deep flat_created (List.replicate n quietYear)
    (fun y hy => by rw [List.eq_of_mem_replicate hy]; constructor <;> simp [quietYear])
    (fun y _ => flat_feedback _)
  exact ⟨outs, m, h, by simpa using hl, C36_rest exactSolver_exact flat_created _
    (fun y hy => by rw [List.eq_of_mem_replicate hy]; exact quiet_noForcing) h⟩

/-! ## Linearity -/

/-- Two years that can be combined: same aerosol weight, volcanic series of the same lengths. -/
structure Compatible (y1 y2 : Year ℝ) : Prop where
  w : y1.w_aero = y2.w_aero
  vn : y1.vn.length = y2.vn.length
  vs : y1.vs.length = y2.vs.length

/-- The year whose forcing is `a` times that of `y1` plus `b` times that of `y2`. -/
noncomputable def combine (a b : ℝ) (y1 y2 : Year ℝ) : Year ℝ where
  w_aero := y1.w_aero
  fn := a * y1.fn + b * y2.fn
  fs := a * y1.fs + b * y2.fs
  vn := List.zipWith (fun x y => a * x + b * y) y1.vn y2.vn
  vs := List.zipWith (fun x y => a * x + b * y) y1.vs y2.vs

/-- The output that is `a` times `o1` plus `b` times `o2`, in every entry. -/
noncomputable def combineOut (a b : ℝ) (o1 o2 : Out ℝ) : Out ℝ where
  dtemp := a * o1.dtemp + b * o2.dtemp
  dtempnh := a * o1.dtempnh + b * o2.dtempnh
  dtempsh := a * o1.dtempsh + b * o2.dtempsh
  tn i := a * o1.tn i + b * o2.tn i
  ts i := a * o1.ts i + b * o2.ts i
  dtemp_air := a * o1.dtemp_air + b * o2.dtemp_air
  dtempnh_air := a * o1.dtempnh_air + b * o2.dtempnh_air
  dtempsh_air := a * o1.dtempsh_air + b * o2.dtempsh_air
  dtemp_sea := a * o1.dtemp_sea + b * o2.dtemp_sea
  dtempnh_sea := a * o1.dtempnh_sea + b * o2.dtempnh_sea
  dtempsh_sea := a * o1.dtempsh_sea + b * o2.dtempsh_sea
  RIBN := a * o1.RIBN + b * o2.RIBN
  RIBS := a * o1.RIBS + b * o2.RIBS
  RIB := a * o1.RIB + b * o2.RIB
  OHC700 := a * o1.OHC700 + b * o2.OHC700
  OHCTOT := a * o1.OHCTOT + b * o2.OHCTOT
  anomalous_radiation := a * o1.anomalous_radiation + b * o2.anomalous_radiation

/-- The same object with other temperatures and last year's forcing. -/
def put (m : Model ℝ) (tn ts : ℕ → ℝ) (x y : ℝ) : Model ℝ :=
  { m with tn := tn, ts := ts, prevFn := x, prevFs := y }

/-- `m1`, `m2`, `m` differ only in temperatures and last year's forcing, and those of `m` are the
combination of the others. -/
def Lin (a b : ℝ) (m1 m2 m : Model ℝ) : Prop :=
  ∃ M t1 s1 t2 s2 x1 y1 x2 y2, m1 = put M t1 s1 x1 y1 ∧ m2 = put M t2 s2 x2 y2 ∧
    m = put M (fun i => a * t1 i + b * t2 i) (fun i => a * s1 i + b * s2 i) (a * x1 + b * x2)
      (a * y1 + b * y2) ∧ M.p.threstemp = 0

theorem setFeedback_put (m : Model ℝ) (tn ts : ℕ → ℝ) (x y w : ℝ) :
    setFeedback (put m tn ts x y) w = put (setFeedback m w) tn ts x y := by
  unfold setFeedback put
  simp only
  split <;> rfl

theorem Lin.setFeedback {a b : ℝ} {m1 m2 m : Model ℝ} (h : Lin a b m1 m2 m) (w : ℝ) :
    Lin a b (setFeedback m1 w) (setFeedback m2 w) (setFeedback m w) := by
  obtain ⟨M, t1, s1, t2, s2, x1, y1, x2, y2, rfl, rfl, rfl, h⟩ := h
  refine ⟨Model.UDM.setFeedback M w, t1, s1, t2, s2, x1, y1, x2, y2, ?_, ?_, ?_, ?_⟩
  · exact setFeedback_put _ _ _ _ _ _
  · exact setFeedback_put _ _ _ _ _ _
  · exact setFeedback_put _ _ _ _ _ _
  · rw [(setFeedback_fields M w).1]; exact h

/-- The accumulated yearly means are combined in the same way. -/
structure LinAcc (a b : ℝ) (s1 s2 s : Model.UDM.Acc ℝ) : Prop where
  tempn : s.tempn = a * s1.tempn + b * s2.tempn
  temps : s.temps = a * s1.temps + b * s2.temps
  tempn_air : s.tempn_air = a * s1.tempn_air + b * s2.tempn_air
  temps_air : s.temps_air = a * s1.temps_air + b * s2.temps_air
  tempn_sea : s.tempn_sea = a * s1.tempn_sea + b * s2.tempn_sea
  temps_sea : s.temps_sea = a * s1.temps_sea + b * s2.temps_sea

theorem refresh_flat {m : Model ℝ} (h : m.p.threstemp = 0) (x y : ℝ) : refresh m x y = m := by
  unfold refresh
  rw [if_neg]
  simp [isEq, h, sci0]

theorem volcAt_combine {a b : ℝ} {v1 v2 s1 s2 : List ℝ} (hv : v1.length = v2.length)
    (_ : s1.length = s2.length) {im : ℕ} {x1 x2 : ℝ} (h1 : volcAt v1 s1 im = .ok x1)
    (h2 : volcAt v2 s2 im = .ok x2) :
    volcAt (List.zipWith (fun x y => a * x + b * y) v1 v2)
      (List.zipWith (fun x y => a * x + b * y) s1 s2) im = .ok (a * x1 + b * x2) := by
  unfold volcAt at *
  have hl : (List.zipWith (fun x y => a * x + b * y) v1 v2).length = v1.length := by simp [← hv]
  rw [hl]
  rw [← hv] at h2
  split at h1
  · cases h1
  · rename_i hne
    rw [if_neg hne] at h2 ⊢
    cases e1 : s1[im % v1.length]? with
    | none => rw [e1] at h1; cases h1
    | some y1 =>
      cases e2 : s2[im % v1.length]? with
      | none => rw [e2] at h2; cases h2
      | some y2 =>
        rw [e1] at h1; rw [e2] at h2
        cases h1; cases h2
        rw [List.getElem?_zipWith, e1, e2]

theorem ramp_combine (a b : ℝ) (n : ℤ) (im : ℕ) (f1 f2 p1 p2 v1 v2 : ℝ) :
    rampForcing n im (a * f1 + b * f2) (a * p1 + b * p2) (a * v1 + b * v2)
      = a * rampForcing n im f1 p1 v1 + b * rampForcing n im f2 p2 v2 := by
  unfold rampForcing; simp only [mofInt, sci1]; ring

/-- The solution for a combined right-hand side. -/
theorem solve_combine {solve : Solver ℝ} (hs : Exact solve) {n : ℕ} {A B C d1 d2 d T1 T2 : ℕ → ℝ}
    {a b : ℝ} (h1 : solve n A B C d1 = .ok T1) (h2 : solve n A B C d2 = .ok T2)
    (hd : ∀ i, d i = a * d1 i + b * d2 i) :
    solve n A B C d = .ok (fun i => a * T1 i + b * T2 i) := by
  have hr := hs.regular _ _ _ _ _ _ h1
  obtain ⟨T, hT⟩ := hs.total n A B C d hr
  obtain ⟨k1, z1⟩ := hs.sound _ _ _ _ _ _ h1
  obtain ⟨k2, z2⟩ := hs.sound _ _ _ _ _ _ h2
  obtain ⟨k, z⟩ := hs.sound _ _ _ _ _ _ hT
  rw [hT]
  congr 1
  funext i
  by_cases hi : i < n
  · refine Solves.unique (U := fun i => a * T1 i + b * T2 i) hr k (fun j hj => ?_) i hi
    rw [row_add, row_smul, row_smul, k1 j hj, k2 j hj, hd]
  · rw [z i (by omega), z1 i (by omega), z2 i (by omega)]; ring

theorem subStep_combine {solve : Solver ℝ} (hs : Exact solve) {a b : ℝ}
    {p1 p2 p : Model ℝ × Model.UDM.Acc ℝ} (hm : Lin a b p1.1 p2.1 p.1) (ha : LinAcc a b p1.2 p2.2 p.2)
    {fn1 fn2 fs1 fs2 : ℝ} {vn1 vn2 vs1 vs2 : List ℝ} (hvn : vn1.length = vn2.length)
    (hvs : vs1.length = vs2.length) {im : ℕ} {q1 q2 : Model ℝ × Model.UDM.Acc ℝ}
    (h1 : subStep solve fn1 fs1 vn1 vs1 p1 im = .ok q1)
    (h2 : subStep solve fn2 fs2 vn2 vs2 p2 im = .ok q2) :
    ∃ q, subStep solve (a * fn1 + b * fn2) (a * fs1 + b * fs2)
        (List.zipWith (fun x y => a * x + b * y) vn1 vn2)
        (List.zipWith (fun x y => a * x + b * y) vs1 vs2) p im = .ok q ∧
      Lin a b q1.1 q2.1 q.1 ∧ LinAcc a b q1.2 q2.2 q.2 := by
  obtain ⟨m1, a1⟩ := p1
  obtain ⟨m2, a2⟩ := p2
  obtain ⟨m, a3⟩ := p
  obtain ⟨M, t1, s1, t2, s2, x1, y1, x2, y2, rfl, rfl, rfl, ht⟩ := hm
  unfold subStep at h1 h2 ⊢
  simp only [bind_eq_ok, pure_ok, Except.ok.injEq] at h1 h2
  have R : ∀ (t s : ℕ → ℝ) (x y u v : ℝ), refresh (put M t s x y) u v = put M t s x y :=
    fun t s x y u v => refresh_flat (by exact ht) u v
  obtain ⟨vN1, c1, vS1, d1, tn1, e1, ts1, f1, g1⟩ := h1
  obtain ⟨vN2, c2, vS2, d2, tn2, e2, ts2, f2, g2⟩ := h2
  rw [R] at e1 f1 g1 e2 f2 g2
  simp only [R]
  rw [volcAt_combine hvn hvn c1 c2, bind_ok, volcAt_combine hvn hvs d1 d2, bind_ok]
  simp only [put] at e1 f1 g1 e2 f2 g2 ⊢
  rw [ramp_combine, ramp_combine]
  rw [solve_combine (a := a) (b := b) hs e1 e2 (fun i => by
    unfold rhsNorth; simp only
    split
    · ring
    · split
      · ring
      · split
        · ring
        · rw [sci0]; ring), bind_ok]
  rw [solve_combine (a := a) (b := b) hs f1 f2 (fun i => by
    unfold rhsSouth; simp only
    split
    · ring
    · split
      · ring
      · split
        · ring
        · rw [sci0]; ring), bind_ok]
  refine ⟨_, rfl, ?_, ?_⟩
  · refine ⟨M, tn1, ts1, tn2, ts2, x1, y1, x2, y2, ?_, ?_, rfl, ht⟩
    · rw [← g1]; rfl
    · rw [← g2]; rfl
  · rw [← g1, ← g2]
    replace ha : LinAcc a b a1 a2 a3 := ha
    constructor <;>
      simp only [accumulate, airNorth, airSouth, ha.tempn, ha.temps, ha.tempn_air, ha.temps_air,
        ha.tempn_sea, ha.temps_sea, mofInt, sci1] <;> ring

theorem subSteps_combine {solve : Solver ℝ} (hs : Exact solve) {a b : ℝ} {m1 m2 m : Model ℝ}
    (hm : Lin a b m1 m2 m) {fn1 fn2 fs1 fs2 : ℝ} {vn1 vn2 vs1 vs2 : List ℝ}
    (hvn : vn1.length = vn2.length) (hvs : vs1.length = vs2.length) {q1 q2 : Model ℝ × Model.UDM.Acc ℝ}
    (h1 : subSteps solve m1 fn1 fs1 vn1 vs1 = .ok q1)
    (h2 : subSteps solve m2 fn2 fs2 vn2 vs2 = .ok q2) :
    ∃ q, subSteps solve m (a * fn1 + b * fn2) (a * fs1 + b * fs2)
        (List.zipWith (fun x y => a * x + b * y) vn1 vn2)
        (List.zipWith (fun x y => a * x + b * y) vs1 vs2) = .ok q ∧
      Lin a b q1.1 q2.1 q.1 ∧ LinAcc a b q1.2 q2.2 q.2 := by
  have hp : m1.p = m.p ∧ m2.p = m.p := by
    obtain ⟨M, t1, s1, t2, s2, x1, y1, x2, y2, rfl, rfl, rfl, ht⟩ := hm
    exact ⟨rfl, rfl⟩
  unfold subSteps at *
  rw [hp.1] at h1
  rw [hp.2] at h2
  have hz : LinAcc a b (Acc.zero : Model.UDM.Acc ℝ) Acc.zero Acc.zero := by
    constructor <;> simp [Acc.zero, sci0]
  have hm' : Lin a b (m1, (Acc.zero : Model.UDM.Acc ℝ)).1 (m2, (Acc.zero : Model.UDM.Acc ℝ)).1
    (m, (Acc.zero : Model.UDM.Acc ℝ)).1 := hm
  have hz' : LinAcc a b (m1, (Acc.zero : Model.UDM.Acc ℝ)).2 (m2, (Acc.zero : Model.UDM.Acc ℝ)).2
    (m, (Acc.zero : Model.UDM.Acc ℝ)).2 := hz
  generalize (m1, (Acc.zero : Model.UDM.Acc ℝ)) = p1 at *
  generalize (m2, (Acc.zero : Model.UDM.Acc ℝ)) = p2 at *
  generalize (m, (Acc.zero : Model.UDM.Acc ℝ)) = p3 at *
  generalize List.range m.p.ldtime.toNat = l at *
  clear hm hp hz
  induction l generalizing p1 p2 p3 with
  | nil =>
    rw [Model.Handler.foldlM_nil_ok] at h1 h2
    subst h1; subst h2
    exact ⟨p3, by simp [pure_ok], hm', hz'⟩
  | cons k l ih =>
    obtain ⟨r1, c1, d1⟩ := Model.Handler.foldlM_cons_ok.1 h1
    obtain ⟨r2, c2, d2⟩ := Model.Handler.foldlM_cons_ok.1 h2
    obtain ⟨r3, c3, l1, l2⟩ := subStep_combine hs hm' hz' hvn hvs c1 c2
    obtain ⟨q, e1, e2⟩ := ih (p1 := r1) (p2 := r2) (p3 := r3) (by assumption) (by assumption) (by assumption) (by assumption)
    exact ⟨q, Model.Handler.foldlM_cons_ok.2 ⟨r3, c3, e1⟩, e2⟩

theorem pyIndex_map {α β : Type} (f : α → β) (l : List α) (i : Int) :
    pyIndex (l.map f) i = (pyIndex l i).map f := by
  unfold pyIndex
  simp only [List.length_map, List.getElem?_map]
  cases l[(if i < 0 then (l.length : Int) + i else i).toNat]? with
  | none => rfl
  | some x => simp only [Option.map_some]; split <;> rfl

theorem pySlice_map {α β : Type} (f : α → β) (l : List α) (i j : Int) :
    pySlice (l.map f) i j = (pySlice l i j).map f := by
  unfold pySlice
  rw [List.length_map, List.map_drop, List.map_take]

theorem oceanTemperature_eq {m : Model ℝ} {r : ℝ × ℝ} (h : oceanTemperature m = .ok r) :
    ∃ j, pyIndex (List.range m.p.lm) (maxLayer m.p) = .ok j ∧
      r.1 = ((pySlice (List.range m.p.lm) 0 (maxLayer m.p)).map (havtemp m)).sum
        + fracLayer m.p * havtemp m j ∧
      r.2 = ((List.range m.p.lm).map (havtemp m)).sum := by
  unfold oceanTemperature havtemps at h
  rw [pyIndex_map] at h
  cases e : pyIndex (List.range m.p.lm) (maxLayer m.p) with
  | error x => rw [e] at h; cases h
  | ok j =>
    rw [e, Except.map, bind_ok, pySlice_map, fsum_eq_sum, fsum_eq_sum] at h
    have := Except.ok.inj h
    exact ⟨j, rfl, by rw [← this], by rw [← this]⟩

theorem oceanTemperature_of {m : Model ℝ} {j : ℕ}
    (h : pyIndex (List.range m.p.lm) (maxLayer m.p) = .ok j) :
    oceanTemperature m = .ok (((pySlice (List.range m.p.lm) 0 (maxLayer m.p)).map (havtemp m)).sum
        + fracLayer m.p * havtemp m j, ((List.range m.p.lm).map (havtemp m)).sum) := by
  unfold oceanTemperature havtemps
  rw [pyIndex_map, h, Except.map, bind_ok, pySlice_map, fsum_eq_sum, fsum_eq_sum]
  rfl

theorem sum_map_combine (a b : ℝ) (f g h : ℕ → ℝ) (hf : ∀ i, h i = a * f i + b * g i) (l : List ℕ) :
    (l.map h).sum = a * (l.map f).sum + b * (l.map g).sum := by
  induction l with
  | nil => simp
  | cons k l ih => simp only [List.map_cons, List.sum_cons, ih, hf]; ring

theorem havtemp_combine {a b : ℝ} {m1 m2 m : Model ℝ} (hm : Lin a b m1 m2 m) (i : ℕ) :
    havtemp m i = a * havtemp m1 i + b * havtemp m2 i := by
  obtain ⟨M, t1, s1, t2, s2, x1, y1, x2, y2, rfl, rfl, rfl, ht⟩ := hm
  unfold havtemp put
  simp only
  generalize (1030.0 * 3.997e-19 * 2.55e14 : ℝ) = K
  ring

theorem Lin.pams {a b : ℝ} {m1 m2 m : Model ℝ} (hm : Lin a b m1 m2 m) : m1.p = m.p ∧ m2.p = m.p ∧
    m1.rlamda = m.rlamda ∧ m2.rlamda = m.rlamda ∧ (m.tn = fun i => a * m1.tn i + b * m2.tn i) ∧
    (m.ts = fun i => a * m1.ts i + b * m2.ts i) := by
  obtain ⟨M, t1, s1, t2, s2, x1, y1, x2, y2, rfl, rfl, rfl, ht⟩ := hm
  exact ⟨rfl, rfl, rfl, rfl, rfl, rfl⟩

theorem ocean_combine {a b : ℝ} {m1 m2 m : Model ℝ} (hm : Lin a b m1 m2 m) {r1 r2 : ℝ × ℝ}
    (h1 : oceanTemperature m1 = .ok r1) (h2 : oceanTemperature m2 = .ok r2) :
    oceanTemperature m = .ok (a * r1.1 + b * r2.1, a * r1.2 + b * r2.2) := by
  obtain ⟨p1, p2, _⟩ := hm.pams
  obtain ⟨j1, i1, e1, f1⟩ := oceanTemperature_eq h1
  obtain ⟨j2, i2, e2, f2⟩ := oceanTemperature_eq h2
  rw [p1] at i1 e1 f1
  rw [p2] at i2 e2 f2
  have : j1 = j2 := Except.ok.inj (i1.symm.trans i2)
  subst this
  rw [oceanTemperature_of i1, e1, e2, f1, f2, sum_map_combine a b _ _ _ (havtemp_combine hm),
    sum_map_combine a b _ _ _ (havtemp_combine hm), havtemp_combine hm]
  congr 2
  ring

theorem mean_combine {a b : ℝ} {v1 v2 : List ℝ} (h : v1.length = v2.length) :
    mean (List.zipWith (fun x y => a * x + b * y) v1 v2) = a * mean v1 + b * mean v2 := by
  have hsum : (List.zipWith (fun x y => a * x + b * y) v1 v2).sum = a * v1.sum + b * v2.sum := by
    induction v1 generalizing v2 with
    | nil => cases v2 with
      | nil => simp
      | cons y v2 => simp at h
    | cons x v1 ih => cases v2 with
      | nil => simp at h
      | cons y v2 =>
        simp only [List.zipWith_cons_cons, List.sum_cons, ih (by simpa using h)]; ring
  unfold mean
  rw [fsum_eq_sum, fsum_eq_sum, fsum_eq_sum, hsum, List.length_zipWith, ← h, min_self]
  simp only [mofInt]; ring

theorem anomalous_combine {a b : ℝ} {m1 m2 m : Model ℝ} (hm : Lin a b m1 m2 m) {t1 s1 t2 s2 : ℕ → ℝ} :
    anomalousRadiation m (fun i => a * t1 i + b * t2 i) (fun i => a * s1 i + b * s2 i)
      = a * anomalousRadiation m1 t1 s1 + b * anomalousRadiation m2 t2 s2 := by
  obtain ⟨M, u1, v1, u2, v2, x1, y1, x2, y2, rfl, rfl, rfl, ht⟩ := hm
  unfold anomalousRadiation
  simp only [fsum_eq_sum]
  generalize (4184.0 * 1000.0 : ℝ) = K
  generalize (365.0 * 86400.0 : ℝ) = L
  rw [sum_map_combine a b
    (fun i => K * dz M.p (i + 1) * ((u1 (i + 1) - t1 (i + 1)) * M.p.foan
      + (v1 (i + 1) - s1 (i + 1)) * M.p.foas))
    (fun i => K * dz M.p (i + 1) * ((u2 (i + 1) - t2 (i + 1)) * M.p.foan
      + (v2 (i + 1) - s2 (i + 1)) * M.p.foas)) _ (fun i => by simp only [put]; ring)]
  simp only [put]
  generalize (M.p.ocean_efficacy - 1.0 : ℝ) = N
  ring

theorem energyBudget_combine {solve : Solver ℝ} (hs : Exact solve) {a b : ℝ} {m1 m2 m : Model ℝ}
    (hm : Lin a b m1 m2 m) {fn1 fn2 fs1 fs2 : ℝ} {vn1 vn2 vs1 vs2 : List ℝ}
    (hvn : vn1.length = vn2.length) (hvs : vs1.length = vs2.length) {o1 o2 : Out ℝ} {k1 k2 : Model ℝ}
    (h1 : energyBudget solve m1 fn1 fs1 vn1 vs1 = .ok (o1, k1))
    (h2 : energyBudget solve m2 fn2 fs2 vn2 vs2 = .ok (o2, k2)) :
    ∃ k, energyBudget solve m (a * fn1 + b * fn2) (a * fs1 + b * fs2)
        (List.zipWith (fun x y => a * x + b * y) vn1 vn2)
        (List.zipWith (fun x y => a * x + b * y) vs1 vs2) = .ok (combineOut a b o1 o2, k) ∧
      Lin a b k1 k2 k := by
  unfold energyBudget at h1 h2 ⊢
  simp only [bind_eq_ok, pure_ok, Except.ok.injEq, Prod.mk.injEq] at h1 h2
  obtain ⟨r1, c1, w1, d1, e1, f1⟩ := h1
  obtain ⟨r2, c2, w2, d2, e2, f2⟩ := h2
  obtain ⟨r, c, hl, ha⟩ := subSteps_combine hs hm hvn hvs c1 c2
  have hl' : Lin a b { r1.1 with prevFn := fn1, prevFs := fs1 }
      { r2.1 with prevFn := fn2, prevFs := fs2 }
      { r.1 with prevFn := a * fn1 + b * fn2, prevFs := a * fs1 + b * fs2 } := by
    obtain ⟨M, t1, s1, t2, s2, x1, y1, x2, y2, g1, g2, g3, ht⟩ := hl
    refine ⟨M, t1, s1, t2, s2, fn1, fs1, fn2, fs2, ?_, ?_, ?_, ht⟩
    · rw [g1]; rfl
    · rw [g2]; rfl
    · rw [g3]; rfl
  obtain ⟨_, _, _, _, tn0, ts0⟩ := hm.pams
  obtain ⟨_, _, q1, q2, tn1, ts1⟩ := hl'.pams
  have ho := ocean_combine hl' d1 d2
  simp only at ho
  rw [c, bind_ok]
  simp only
  rw [ho, bind_ok]
  rw [tn0, ts0, anomalous_combine hl', mean_combine hvn, mean_combine hvs]
  refine ⟨_, congrArg Except.ok (Prod.ext ?_ rfl), f1 ▸ f2 ▸ hl'⟩
  simp only at q1 q2 tn1 ts1
  rw [← e1, ← e2]
  simp only [combineOut, ha.tempn, ha.temps, ha.tempn_air, ha.temps_air,
        ha.tempn_sea, ha.temps_sea, tn1, ts1, q1, q2, sci2, Out.mk.injEq]
  refine ⟨?_, ?_, ?_, ?_, ?_, ?_, ?_, ?_, ?_, ?_, ?_, ?_, ?_, ?_, ?_, ?_, ?_⟩ <;> first | trivial | ring

/-- **C36.** With the temperature dependence of the upwelling switched off, the response to a
combination of two forcing histories is the combination of the responses: in every output, every
year, and the combined history runs whenever the two do. -/
theorem C36_linear {solve : Solver ℝ} (hs : Exact solve) {p : Pams ℝ} (ht : p.threstemp = 0)
    {m0 : Model ℝ} (hc : create p = .ok m0) (a b : ℝ) {ys1 ys2 : List (Year ℝ)}
    (hy : List.Forall₂ Compatible ys1 ys2) {outs1 outs2 : List (Out ℝ)} {k1 k2 : Model ℝ}
    (h1 : run solve m0 ys1 = .ok (outs1, k1)) (h2 : run solve m0 ys2 = .ok (outs2, k2)) :
    ∃ k, run solve m0 (List.zipWith (combine a b) ys1 ys2)
      = .ok (List.zipWith (combineOut a b) outs1 outs2, k) := by
  rw [create_ok hc] at h1 h2 ⊢
  have start : Lin a b (init p) (init p) (init p) := by
    refine ⟨init p, fun _ => 0, fun _ => 0, fun _ => 0, fun _ => 0, 0, 0, 0, 0, ?_, ?_, ?_, ht⟩
    all_goals
      unfold init setupEbud setupEbud2 put
      simp [sci0]
  have main : ∀ m1 m2 m, Lin a b m1 m2 m → run solve m1 ys1 = .ok (outs1, k1) →
      run solve m2 ys2 = .ok (outs2, k2) → ∃ k, run solve m (List.zipWith (combine a b) ys1 ys2)
        = .ok (List.zipWith (combineOut a b) outs1 outs2, k) := by
    clear h1 h2 start
    induction hy generalizing outs1 outs2 with
    | nil =>
      intro m1 m2 m hm h1 h2
      obtain ⟨rfl, _⟩ := run_nil.1 h1
      exact ⟨m, rfl⟩
    | @cons y1 y2 l1 l2 hc _ ih =>
      intro m1 m2 m hm h1 h2
      obtain ⟨o1, n1, os1, c1, d1, rfl⟩ := run_cons.1 h1
      obtain ⟨o2, n2, os2, c2, d2, rfl⟩ := run_cons.1 h2
      rw [← hc.w] at c2
      obtain ⟨n, c, hl⟩ := energyBudget_combine hs (hm.setFeedback y1.w_aero) hc.vn hc.vs c1 c2
      obtain ⟨k, d⟩ := ih n1 n2 n hl d1 d2
      exact ⟨k, run_cons.2 ⟨_, n, _, c, d, rfl⟩⟩
  exact main _ _ _ start h1 h2

/-- The hypotheses are met: two histories of any length, warm and quiet years, default parameters. -/
example (n : ℕ) : ∃ outs1 outs2 k1 k2,
    run exactSolver (init flatPams) (List.replicate n warmYear) = .ok (outs1, k1) ∧
    run exactSolver (init flatPams) (List.replicate n quietYear) = .ok (outs2, k2) ∧
    List.Forall₂ Compatible (List.replicate n warmYear) (List.replicate n quietYear) := by
  obtain ⟨o1, m1, h1, -⟩ := C35_run_succeeds exactSolver_exact flat_physical rfl flat_ordered
    flat_deep flat_created (List.replicate n warmYear)
    (fun y hy => by rw [List.eq_of_mem_replicate hy]; constructor <;> simp [warmYear])
    (fun y _ => flat_feedback _)
  obtain ⟨o2, m2, h2, -⟩ := C35_run_succeeds exactSolver_exact flat_physical rfl flat_ordered
    flat_deep flat_created (List.replicate n quietYear)
    (fun y hy => by rw [List.eq_of_mem_replicate hy]; constructor <;> simp [quietYear])
    (fun y _ => flat_feedback _)
  refine ⟨o1, o2, m1, m2, h1, h2, ?_⟩
  clear h1 h2
  induction n with
  | zero => simp
  | succ n ih =>
    simp only [List.replicate_succ]
    refine .cons ⟨rfl, ?_, ?_⟩ ih <;> simp [warmYear, quietYear]

end Verif.Props.C36
