import Verif.Lemmas.UDMDom

/-!
# C35: the implicit ocean solve has exactly one solution and respects the maximum principle
-/

namespace Verif.Props.C35
open Verif.Py Verif.Model.UDM Verif.Spec.Tridiag Verif.Spec.Diffusion Verif.Lemmas Verif.Lemmas.UDM
  Verif.Lemmas.Tridiag
open Finset (range)

/-- A model object some user can get hold of: created with the parameters, then any sequence of
feedback updates, whole years, and sub-steps within a year, with any forcing. -/
inductive Reachable (solve : Solver ℝ) (p : Pams ℝ) : Model ℝ → Prop
  | created {m : Model ℝ} : create p = .ok m → Reachable solve p m
  | feedback {m : Model ℝ} (w : ℝ) : Reachable solve p m → Reachable solve p (setFeedback m w)
  | budget {m m' : Model ℝ} {fn fs : ℝ} {vn vs : List ℝ} {o : Out ℝ} : Reachable solve p m →
      energyBudget solve m fn fs vn vs = .ok (o, m') → Reachable solve p m'
  | within {st st' : Model ℝ × Model.UDM.Acc ℝ} {fn fs : ℝ} {vn vs : List ℝ} {im : ℕ} :
      Reachable solve p st.1 → subStep solve fn fs vn vs st im = .ok st' → Reachable solve p st'.1

theorem create_ok {p : Pams ℝ} {m : Model ℝ} (h : create p = .ok m) : m = init p := by
  unfold create at h
  split at h
  · cases h
  · split at h
    · cases h
    · split at h
      · cases h
      · exact (Except.ok.inj h).symm

theorem Reachable.ready {solve : Solver ℝ} (hs : Exact solve) {p : Pams ℝ} {m : Model ℝ}
    (h : Reachable solve p m) : Ready m ∧ m.p = p := by
  induction h with
  | created h => rw [create_ok h]; exact ⟨init_ready p, rfl⟩
  | @feedback m w _ ih => exact ⟨setFeedback_ready ih.1 w, (setFeedback_fields m w).1.trans ih.2⟩
  | @budget m m' fn fs vn vs o _ h ih =>
    obtain ⟨r, _, _, e1, e2, _⟩ := energyBudget_ok h
    have sy := subSteps_same hs ih.1 e1
    rw [e2]
    exact ⟨sy.ready.withTemps r.1.tn r.1.ts fn fs, sy.p.trans ih.2⟩
  | within _ h ih =>
    have sy := SameYear.subStep hs ih.1 h
    exact ⟨sy.ready, sy.p.trans ih.2⟩

theorem phys {p : Pams ℝ} (hp : Physical p) {r : ℝ} (hr : 0 < r) : Phys p r :=
  ⟨hr, hp.exchange, hp.north, hp.south, hp.between, hp.mixed, hp.layers, hp.steps⟩

/-- **C35.** For every reachable model object and every pair of surface temperatures at which the
upwelling is in the physical range, the system a sub-step solves in each hemisphere is strictly
diagonally dominant. -/
theorem C35_dominant {solve : Solver ℝ} (hs : Exact solve) {p : Pams ℝ} (hp : Physical p)
    {m : Model ℝ} (hm : Reachable solve p m) (hf : 0 < m.rlamda) (tNorth tSouth : ℝ)
    (hn : Ordered p (upwelling p tNorth)) (hso : Ordered p (upwelling p tSouth)) :
    let s := refresh m tNorth tSouth
    Dominant p.lm s.v.north.a s.v.north.b s.v.north.c ∧
    Dominant p.lm s.v.south.a s.v.south.b s.v.south.c := by
  obtain ⟨hr, rfl⟩ := hm.ready hs
  exact dominant hr (phys hp hf) tNorth tSouth hn hso

/-- **C35.** Each of the two systems has exactly one solution for every right-hand side, and the
solver returns it. -/
theorem C35_unique_solution {solve : Solver ℝ} (hs : Exact solve) {p : Pams ℝ} (hp : Physical p)
    {m : Model ℝ} (hm : Reachable solve p m) (hf : 0 < m.rlamda) (tNorth tSouth : ℝ)
    (hn : Ordered p (upwelling p tNorth)) (hso : Ordered p (upwelling p tSouth)) (d : ℕ → ℝ) :
    let s := refresh m tNorth tSouth
    (∃ T, solve p.lm s.v.north.a s.v.north.b s.v.north.c d = .ok T ∧
      Solves p.lm s.v.north.a s.v.north.b s.v.north.c d T ∧
      ∀ U, Solves p.lm s.v.north.a s.v.north.b s.v.north.c d U → ∀ i < p.lm, U i = T i) ∧
    (∃ T, solve p.lm s.v.south.a s.v.south.b s.v.south.c d = .ok T ∧
      Solves p.lm s.v.south.a s.v.south.b s.v.south.c d T ∧
      ∀ U, Solves p.lm s.v.south.a s.v.south.b s.v.south.c d U → ∀ i < p.lm, U i = T i) := by
  intro s
  obtain ⟨h1, h2⟩ := C35_dominant hs hp hm hf tNorth tSouth hn hso
  have key : ∀ a b c, Dominant p.lm a b c → ∃ T, solve p.lm a b c d = .ok T ∧
      Solves p.lm a b c d T ∧ ∀ U, Solves p.lm a b c d U → ∀ i < p.lm, U i = T i := by
    intro a b c hd
    obtain ⟨T, hT⟩ := hs.total _ _ _ _ d (Tridiag.Dominant.regular hd)
    have hT' := (hs.sound _ _ _ _ _ _ hT).1
    exact ⟨T, hT, hT', fun U hU => Solves.unique (Tridiag.Dominant.regular hd) hU hT'⟩
  exact ⟨key _ _ _ h1, key _ _ _ h2⟩

/-- **C35.** Maximum principle: a non-negative right-hand side gives non-negative temperatures. -/
theorem C35_maximum_principle {solve : Solver ℝ} (hs : Exact solve) {p : Pams ℝ} (hp : Physical p)
    {m : Model ℝ} (hm : Reachable solve p m) (hf : 0 < m.rlamda) (tNorth tSouth : ℝ)
    (hn : Ordered p (upwelling p tNorth)) (hso : Ordered p (upwelling p tSouth))
    (d T : ℕ → ℝ) (hd : ∀ i < p.lm, 0 ≤ d i) :
    let s := refresh m tNorth tSouth
    (Solves p.lm s.v.north.a s.v.north.b s.v.north.c d T → ∀ i < p.lm, 0 ≤ T i) ∧
    (Solves p.lm s.v.south.a s.v.south.b s.v.south.c d T → ∀ i < p.lm, 0 ≤ T i) := by
  intro s
  obtain ⟨h1, h2⟩ := C35_dominant hs hp hm hf tNorth tSouth hn hso
  exact ⟨fun h => nonneg h1 fun i hi => (h i hi).symm ▸ hd i hi,
    fun h => nonneg h2 fun i hi => (h i hi).symm ▸ hd i hi⟩

/-! ## Whole histories -/

/-- A year whose volcanic series can be read: the northern one is not empty, the southern one at
least as long. -/
structure Readable (y : Year ℝ) : Prop where
  north : y.vn ≠ []
  south : y.vn.length ≤ y.vs.length

/-- The mixed layer is at most 700 m deep and the layers reach 700 m. -/
structure Deep700 (p : Pams ℝ) : Prop where
  shallow : p.mixed ≤ 700
  reach : 7 < p.lm + ⌊p.mixed / 100⌋

theorem maxLayer_eq (p : Pams ℝ) : maxLayer p = 7 - ⌊p.mixed / 100⌋ := by
  unfold maxLayer; rw [dz_zero, sci100]; rfl

theorem oceanTemperature_ok {m : Model ℝ} (h : Deep700 m.p) :
    ∃ r, oceanTemperature m = .ok r := by
  have h1 := h.shallow
  have h2 : ⌊m.p.mixed / 100⌋ ≤ 7 := by
    have : ⌊m.p.mixed / 100⌋ < 8 := by
      rw [Int.floor_lt]; push_cast; rw [div_lt_iff₀ (by norm_num)]; linarith
    omega
  have h3 := h.reach
  unfold oceanTemperature pyIndex
  rw [maxLayer_eq]
  have hl : (havtemps m).length = m.p.lm := by simp [havtemps]
  rw [if_neg (by omega)]
  have : (7 - ⌊m.p.mixed / 100⌋).toNat < (havtemps m).length := by omega
  rw [List.getElem?_eq_getElem this]
  simp only
  rw [if_neg (by omega), bind_ok]
  exact ⟨_, rfl⟩

theorem volcAt_exists {vn s : List ℝ} (h0 : vn ≠ []) (h1 : vn.length ≤ s.length) (im : ℕ) :
    ∃ x, volcAt vn s im = .ok x := by
  have hp : 0 < vn.length := List.length_pos_iff.2 h0
  unfold volcAt
  rw [if_neg (by omega)]
  have : im % vn.length < s.length := lt_of_lt_of_le (Nat.mod_lt _ hp) h1
  rw [List.getElem?_eq_getElem this]
  exact ⟨_, rfl⟩

theorem subStep_exists {solve : Solver ℝ} (hs : Exact solve) {st : Model ℝ × Model.UDM.Acc ℝ}
    (hr : Ready st.1) (hp : Phys st.1.p st.1.rlamda)
    (ha : Ordered st.1.p (upwelling st.1.p st.2.temp1n))
    (hb : Ordered st.1.p (upwelling st.1.p st.2.temp1s))
    {fn fs : ℝ} {vn vs : List ℝ} (h0 : vn ≠ []) (h1 : vn.length ≤ vs.length) (im : ℕ) :
    ∃ st', subStep solve fn fs vn vs st im = .ok st' := by
  obtain ⟨d1, d2⟩ := dominant hr hp _ _ ha hb
  obtain ⟨vN, e1⟩ := volcAt_exists h0 le_rfl im
  obtain ⟨vS, e2⟩ := volcAt_exists h0 h1 im
  have hq := (refresh_spec hr st.2.temp1n st.2.temp1s).2.2.1
  unfold subStep
  rw [e1, bind_ok]
  simp only
  rw [e2, bind_ok]
  rw [← hq] at d1 d2
  obtain ⟨tn, e3⟩ := hs.total _ _ _ _ (rhsNorth (refresh st.1 st.2.temp1n st.2.temp1s)
    (rampForcing (refresh st.1 st.2.temp1n st.2.temp1s).p.ldtime im fn
      (refresh st.1 st.2.temp1n st.2.temp1s).prevFn vN)
    (rampForcing (refresh st.1 st.2.temp1n st.2.temp1s).p.ldtime im fs
      (refresh st.1 st.2.temp1n st.2.temp1s).prevFs vS)) (Tridiag.Dominant.regular d1)
  obtain ⟨ts, e4⟩ := hs.total _ _ _ _ (rhsSouth (refresh st.1 st.2.temp1n st.2.temp1s)
    (rampForcing (refresh st.1 st.2.temp1n st.2.temp1s).p.ldtime im fn
      (refresh st.1 st.2.temp1n st.2.temp1s).prevFn vN)
    (rampForcing (refresh st.1 st.2.temp1n st.2.temp1s).p.ldtime im fs
      (refresh st.1 st.2.temp1n st.2.temp1s).prevFs vS)) (Tridiag.Dominant.regular d2)
  rw [e3, bind_ok, e4, bind_ok]
  exact ⟨_, rfl⟩

theorem upwelling_flat {p : Pams ℝ} (h : p.threstemp = 0) (t : ℝ) : upwelling p t = p.W := by
  unfold upwelling; rw [if_pos h]

theorem energyBudget_exists {solve : Solver ℝ} (hs : Exact solve) {m : Model ℝ}
    (hr : Ready m) (hp : Phys m.p m.rlamda) (ht : m.p.threstemp = 0) (ho : Ordered m.p m.p.W)
    (h7 : Deep700 m.p) {fn fs : ℝ} {vn vs : List ℝ} (h0 : vn ≠ []) (h1 : vn.length ≤ vs.length) :
    ∃ r, energyBudget solve m fn fs vn vs = .ok r := by
  have : ∃ r, subSteps solve m fn fs vn vs = .ok r ∧ SameYear m r.1 := by
    unfold subSteps
    refine foldlM_range_ok (fun _ (s : Model ℝ × Model.UDM.Acc ℝ) => SameYear m s.1) (SameYear.refl hr) ?_
    intro k _ b hb
    have ho' : Ordered b.1.p b.1.p.W := by rw [hb.p]; exact ho
    have ht' : b.1.p.threstemp = 0 := by rw [hb.p]; exact ht
    have hp' : Phys b.1.p b.1.rlamda := by rw [hb.p, hb.rlamda]; exact hp
    obtain ⟨b', h⟩ := subStep_exists (solve := solve) hs hb.ready hp'
      (by rw [upwelling_flat ht']; exact ho') (by rw [upwelling_flat ht']; exact ho')
      (fn := fn) (fs := fs) h0 h1 k
    exact ⟨b', h, hb.trans (SameYear.subStep hs hb.ready h)⟩
  obtain ⟨r, e, sy⟩ := this
  unfold energyBudget
  rw [e, bind_ok]
  simp only
  obtain ⟨q, hq⟩ := oceanTemperature_ok (m := { r.1 with prevFn := fn, prevFs := fs })
    (by show Deep700 r.1.p; rw [sy.p]; exact h7)
  rw [hq, bind_ok]
  exact ⟨_, rfl⟩

/-- **C35.** With a constant upwelling rate in the physical range no year of any history fails. -/
theorem C35_run_succeeds {solve : Solver ℝ} (hs : Exact solve) {p : Pams ℝ} (hp : Physical p)
    (ht : p.threstemp = 0) (ho : Ordered p p.W) (h7 : Deep700 p) {m0 : Model ℝ}
    (hc : create p = .ok m0) (ys : List (Year ℝ)) (hr : ∀ y ∈ ys, Readable y)
    (hf : ∀ y ∈ ys, 0 < feedback p y.w_aero) :
    ∃ outs m, run solve m0 ys = .ok (outs, m) ∧ outs.length = ys.length := by
  rw [create_ok hc]
  induction ys using List.reverseRecOn with
  | nil => exact ⟨[], init p, rfl, rfl⟩
  | append_singleton ys y ih =>
    obtain ⟨outs, m, h, hl⟩ := ih (fun z hz => hr z (by simp [hz])) (fun z hz => hf z (by simp [hz]))
    have a := run_after hs h
    have hfy := hf y (by simp)
    have hp' := a.phys hp hfy
    have e := (setFeedback_fields m y.w_aero).1.trans a.pams
    obtain ⟨⟨o, m'⟩, h'⟩ := energyBudget_exists (solve := solve) hs (setFeedback_ready a.ready y.w_aero)
      hp' (by rw [e]; exact ht) (by rw [e]; exact ho) (by rw [e]; exact h7) (fn := y.fn) (fs := y.fs)
      (hr y (by simp)).north (hr y (by simp)).south
    exact ⟨outs ++ [o], m', run_snoc.2 ⟨outs, m, o, h, h', rfl⟩, by simp [hl]⟩

/-! ## Warming forcing warms -/

/-- A year with non-negative forcing. -/
structure Warming (y : Year ℝ) : Prop where
  north : 0 ≤ y.fn
  south : 0 ≤ y.fs
  volcNorth : ∀ x ∈ y.vn, 0 ≤ x
  volcSouth : ∀ x ∈ y.vs, 0 ≤ x

section
variable {m : Model ℝ} (hb : Base m) (hp : Phys m.p m.rlamda)
include hb hp

theorem rhs_nonneg {wn ws : ℝ} (hu : Upwell m (wn / m.p.ldtime) (ws / m.p.ldtime)) (hon : Ordered m.p wn)
    (hos : Ordered m.p ws) (hg : Gentle m.p wn) (hgs : Gentle m.p ws) {dqn dqs : ℝ} (hn : 0 ≤ dqn) (hso : 0 ≤ dqs) (htn : ∀ i, 0 ≤ m.tn i)
    (hts : ∀ i, 0 ≤ m.ts i) (i : ℕ) : 0 ≤ rhsNorth m dqn dqs i ∧ 0 ≤ rhsSouth m dqn dqs i := by
  have h0 := blm_nonneg hb hp
  have h1 : 0 ≤ m.gamn := h0.trans (gamn_gt hb hp).le
  have h2 : 0 ≤ m.gams := h0.trans (gams_gt hb hp).le
  have hD := (denom_pos hb hp).le
  have hd := (dt_pos hp).le
  have hc := c1_pos.le
  have hm := hp.mixed.le
  have hfn := hp.foan.le
  have hfs := hp.foas.le
  have heb := hp.ebbeta
  have hbo := hg.exchange
  have hcp := hg.sinking
  have hso' : 0 ≤ fnso m.p := div_nonneg hfn hfs
  have hnl : (0 : ℝ) ≤ m.p.ldtime := by
    have := hp.ldtime; exact_mod_cast (by omega : 0 ≤ m.p.ldtime)
  have hwn : 0 ≤ wn / m.p.ldtime := div_nonneg hon.upward hnl
  have hws : 0 ≤ ws / m.p.ldtime := div_nonneg hos.upward hnl
  have hlast : dz m.p (m.p.lm - 1) = 100 := by
    obtain ⟨k, hk⟩ : ∃ k, m.p.lm - 1 = k + 1 := ⟨m.p.lm - 2, by have := hp.lm; omega⟩
    rw [hk, dz_succ]
  have t1n : 0 ≤ m.v.dtrm1n := by
    rw [hu.dtrm1n, dt_eq, c1_eq]; have := hg.topNorth; linarith
  have t1s : 0 ≤ m.v.dtrm1s := by
    rw [hu.dtrm1s, dt_eq, c1_eq]; have := hgs.topSouth; unfold fnso; linarith
  have t2n : 0 ≤ m.v.dtrm2n := by rw [hb.dtrm2n]; positivity
  have t3n : 0 ≤ m.v.dtrm3n := by rw [hb.dtrm3n]; positivity
  have t4n : 0 ≤ m.v.dtrm4n := by rw [hb.dtrm4n]; positivity
  have t2s : 0 ≤ m.v.dtrm2s := by rw [hb.dtrm2s]; positivity
  have t3s : 0 ≤ m.v.dtrm3s := by rw [hb.dtrm3s]; positivity
  have t4s : 0 ≤ m.v.dtrm4s := by rw [hb.dtrm4s]; positivity
  have l3n : 0 ≤ m.v.dtmnl3 := by rw [hb.dtmnl3, hlast]; positivity
  have l2n : 0 ≤ m.v.dtmnl2 := by rw [hu.dtmnl2, hlast]; positivity
  have l3s : 0 ≤ m.v.dtmsl3 := by rw [hb.dtmsl3]; positivity
  have l2s : 0 ≤ m.v.dtmsl2 := by rw [hu.dtmsl2, hlast]; positivity
  have e3 : m.v.dtmnl3 = m.p.beto * (year / m.p.ldtime) / (capacity * 100) := by
    rw [hb.dtmnl3, hlast, dt_eq, c1_eq]; ring
  have l1n : 0 ≤ m.v.dtmnl1 := by
    rw [hb.dtmnl1, e3]; have := hg.deepNorth; linarith
  have l1s : 0 ≤ m.v.dtmsl1 := by
    rw [hb.dtmsl1, hb.dtmsl3, e3]; have := hg.deepSouth; unfold fnso
    have e : m.p.foan / m.p.foas * (m.p.beto * (year / m.p.ldtime) / (capacity * 100))
      = m.p.foan / m.p.foas * m.p.beto * (year / m.p.ldtime) / (capacity * 100) := by ring
    rw [e]; linarith
  have ani := htn i
  have asi := hts i
  have an0 := htn 0
  have as0 := hts 0
  have anl := htn (m.p.lm - 1)
  have asl := hts (m.p.lm - 1)
  constructor
  · unfold rhsNorth
    split
    · positivity
    · split
      · positivity
      · split
        · rename_i hi _ _
          obtain ⟨k, rfl⟩ := Nat.exists_eq_succ_of_ne_zero hi
          rw [dz_succ, dt_eq, c1_eq]
          have hg1 := hg.deepNorth
          have hg0 : 0 ≤ m.p.beto * (year / m.p.ldtime) / (capacity * 100) := by rw [← e3]; exact l3n
          nlinarith [mul_nonneg hg0 asi, mul_nonneg (sub_nonneg.2 hg1) ani]
        · rw [sci0]
  · unfold rhsSouth
    split
    · positivity
    · split
      · positivity
      · split
        · rename_i hi _ _
          obtain ⟨k, rfl⟩ := Nat.exists_eq_succ_of_ne_zero hi
          rw [dz_succ, dt_eq, c1_eq]
          unfold fnso
          have hg1 := hg.deepSouth
          have e : m.p.foan / m.p.foas * (m.p.beto * (year / m.p.ldtime) / (capacity * 100))
            = m.p.foan / m.p.foas * m.p.beto * (year / m.p.ldtime) / (capacity * 100) := by ring
          have hg0 : 0 ≤ m.p.foan / m.p.foas * m.p.beto * (year / m.p.ldtime) / (capacity * 100) := by
            rw [← e, ← e3]; exact mul_nonneg hso' l3n
          nlinarith [mul_nonneg hg0 ani, mul_nonneg (sub_nonneg.2 hg1) asi]
        · rw [sci0]

theorem air_nonneg {dqn dqs x y : ℝ} (hn : 0 ≤ dqn) (hso : 0 ≤ dqs) (hx : 0 ≤ x) (hy : 0 ≤ y) :
    0 ≤ airNorth m dqn dqs x y ∧ 0 ≤ airSouth m dqn dqs x y := by
  have h0 := blm_nonneg hb hp
  have h1 : 0 ≤ m.gamn := h0.trans (gamn_gt hb hp).le
  have h2 : 0 ≤ m.gams := h0.trans (gams_gt hb hp).le
  have hD := (denom_pos hb hp).le
  have hr := hp.rlamdo.le
  have hfn := hp.foan.le
  have hfs := hp.foas.le
  rw [airNorth_eq hb hp, airSouth_eq hb hp]
  constructor <;> positivity

end

/-- Signs of everything a year accumulates. -/
structure NonnegAcc (s : Model.UDM.Acc ℝ) : Prop where
  an : 0 ≤ s.tempn_air
  as : 0 ≤ s.temps_air
  sn : 0 ≤ s.tempn_sea
  ss : 0 ≤ s.temps_sea

theorem ramp_nonneg {n : ℤ} {im : ℕ} (hi : im < n.toNat) {f p v : ℝ} (hf : 0 ≤ f) (hp : 0 ≤ p)
    (hv : 0 ≤ v) : 0 ≤ rampForcing n im f p v := by
  unfold rampForcing
  rw [mofInt, mofInt, sci1]
  have hn : (0 : ℝ) < n := by exact_mod_cast (by omega : 0 < n)
  have h1 : ((((im : ℤ) + 1 : ℤ)) : ℝ) ≤ n := by exact_mod_cast (by omega : (im : ℤ) + 1 ≤ n)
  have h0 : (0 : ℝ) ≤ (((im : ℤ) + 1 : ℤ) : ℝ) := by exact_mod_cast (by omega : (0 : ℤ) ≤ (im : ℤ) + 1)
  have h2 : (((im : ℤ) + 1 : ℤ) : ℝ) * (1 / n) ≤ 1 := by
    rw [mul_one_div, div_le_one hn]; exact h1
  have : 0 ≤ (((im : ℤ) + 1 : ℤ) : ℝ) * f * (1 / n) := by positivity
  have : 0 ≤ (1 - (((im : ℤ) + 1 : ℤ) : ℝ) * (1 / n)) * p := mul_nonneg (by linarith) hp
  linarith

theorem getD_nonneg {l : List ℝ} (h : ∀ x ∈ l, 0 ≤ x) (k : ℕ) : 0 ≤ l.getD k 0 := by
  rw [List.getD_eq_getElem?_getD]
  cases e : l[k]? with
  | none => simp
  | some x => exact h x (List.mem_of_getElem? e)

theorem subSteps_nonneg {solve : Solver ℝ} (hs : Exact solve) {m : Model ℝ} (hr : Ready m)
    (hp : Phys m.p m.rlamda) (ht : m.p.threstemp = 0) (ho : Ordered m.p m.p.W)
    (hg : Gentle m.p m.p.W) {fn fs : ℝ} {vn vs : List ℝ} (hfn : 0 ≤ fn) (hfs : 0 ≤ fs)
    (hvn : ∀ x ∈ vn, 0 ≤ x) (hvs : ∀ x ∈ vs, 0 ≤ x) (hpn : 0 ≤ m.prevFn) (hps : 0 ≤ m.prevFs)
    (htn : ∀ i, 0 ≤ m.tn i) (hts : ∀ i, 0 ≤ m.ts i) {r : Model ℝ × Model.UDM.Acc ℝ}
    (h : subSteps solve m fn fs vn vs = .ok r) :
    (∀ i, 0 ≤ r.1.tn i) ∧ (∀ i, 0 ≤ r.1.ts i) ∧ NonnegAcc r.2 := by
  unfold subSteps at h
  refine (foldlM_range_inv (fun _ s => SameYear m s.1 ∧ (∀ i, 0 ≤ s.1.tn i) ∧ (∀ i, 0 ≤ s.1.ts i) ∧
    NonnegAcc s.2) ?_ ?_ h).2
  · refine ⟨SameYear.refl hr, htn, hts, ?_⟩
    constructor <;> simp [Acc.zero, sci0]
  · rintro k hk b b' ⟨sy, bn, bs, ba⟩ hb
    obtain ⟨tn, ts, m1, hm1, hS1, hS2, hz, e1, e2⟩ := subStep_spec hs sy.ready hb
    have hn : 0 ≤ (applied b.1 fn fs vn vs k).1 := by
      rw [sy.applied]
      exact ramp_nonneg hk hfn hpn (getD_nonneg hvn _)
    have hso : 0 ≤ (applied b.1 fn fs vn vs k).2 := by
      rw [sy.applied]
      exact ramp_nonneg hk hfs hps (getD_nonneg hvs _)
    obtain ⟨hr1, hu, _, _, q1, q2, _⟩ := refresh_spec sy.ready b.2.temp1n b.2.temp1s
    have sm := sy.trans (SameYear.refresh sy.ready b.2.temp1n b.2.temp1s)
    rw [← hm1] at hr1 hu sm q1 q2
    have hp1 : Phys m1.p m1.rlamda := by rw [sm.p, sm.rlamda]; exact hp
    have ho1 : Ordered m1.p m1.p.W := by rw [sm.p]; exact ho
    have hg1 : Gentle m1.p m1.p.W := by rw [sm.p]; exact hg
    have ht1 : m1.p.threstemp = 0 := by rw [sm.p]; exact ht
    rw [sy.p, ← sm.p, wcfac_eq, wcfac_eq, upwelling_flat ht1, upwelling_flat ht1] at hu
    have rn := rhs_nonneg hr1.base hp1 hu ho1 ho1 hg1 hg1 hn hso (by rw [q1]; exact bn) (by rw [q2]; exact bs)
    have D1 : Dominant m1.p.lm m1.v.north.a m1.v.north.b m1.v.north.c := by
      rw [hu.north]; exact dominant_coeff hr1.base hp1 ho1 true
    have D2 : Dominant m1.p.lm m1.v.south.a m1.v.south.b m1.v.south.c := by
      rw [hu.south]; exact dominant_coeff hr1.base hp1 ho1 false
    have n1 := nonneg D1 fun i hi => (hS1 i hi).symm ▸ (rn i).1
    have n2 := nonneg D2 fun i hi => (hS2 i hi).symm ▸ (rn i).2
    have N1 : ∀ i, 0 ≤ tn i := fun i => by
      by_cases hi : i < m1.p.lm
      · exact n1 i hi
      · rw [(hz i (by omega)).1]
    have N2 : ∀ i, 0 ≤ ts i := fun i => by
      by_cases hi : i < m1.p.lm
      · exact n2 i hi
      · rw [(hz i (by omega)).2]
    have air := air_nonneg hr1.base hp1 hn hso (N1 0) (N2 0)
    have hl : (0 : ℝ) ≤ m1.p.ldtime := by
      have := hp1.ldtime; exact_mod_cast (by omega : 0 ≤ m1.p.ldtime)
    refine ⟨sy.trans (SameYear.subStep hs sy.ready hb), ?_, ?_, ?_⟩
    · rw [e1]; exact N1
    · rw [e1]; exact N2
    · rw [e2]
      refine ⟨?_, ?_, ?_, ?_⟩ <;> simp only [accumulate, mofInt]
      · exact add_nonneg ba.an (div_nonneg air.1 hl)
      · exact add_nonneg ba.as (div_nonneg air.2 hl)
      · exact add_nonneg ba.sn (div_nonneg (N1 0) hl)
      · exact add_nonneg ba.ss (div_nonneg (N2 0) hl)

theorem before_nonneg {α : Type} {xs : List α} {f : α → ℝ} (h : ∀ x ∈ xs, 0 ≤ f x) :
    0 ≤ before xs f := by
  unfold before
  cases e : xs.getLast? with
  | none => simp
  | some x => exact h x (List.mem_of_getLast? e)

/-- **C35.** Maximum principle for whole histories: if no forcing is ever negative, no temperature
(any layer, air or sea surface, either hemisphere) and no heat content is ever negative. -/
theorem C35_warming {solve : Solver ℝ} (hs : Exact solve) {p : Pams ℝ} (hp : Physical p)
    (ht : p.threstemp = 0) (ho : Ordered p p.W) (hg : Gentle p p.W) {m0 : Model ℝ}
    (hc : create p = .ok m0) (ys : List (Year ℝ)) (hw : ∀ y ∈ ys, Warming y)
    (hf : ∀ y ∈ ys, 0 < feedback p y.w_aero) {outs : List (Out ℝ)} {m : Model ℝ}
    (h : run solve m0 ys = .ok (outs, m)) :
    ∀ o ∈ outs, (∀ i, 0 ≤ o.tn i ∧ 0 ≤ o.ts i) ∧ 0 ≤ o.dtempnh_air ∧ 0 ≤ o.dtempsh_air ∧
      0 ≤ o.dtempnh_sea ∧ 0 ≤ o.dtempsh_sea ∧ 0 ≤ o.OHCTOT := by
  rw [create_ok hc] at h
  induction ys using List.reverseRecOn generalizing outs m with
  | nil => obtain ⟨rfl, _⟩ := run_nil.1 h; simp
  | append_singleton ys y ih =>
    obtain ⟨os, m1, o, h1, h2, rfl⟩ := run_snoc.1 h
    have IH := ih (fun z hz => hw z (by simp [hz])) (fun z hz => hf z (by simp [hz])) h1
    have a := run_after hs h1
    have hfy := hf y (by simp)
    have hwy := hw y (by simp)
    have hp' := a.phys hp hfy
    obtain ⟨f1, f2, f3, f4, f5⟩ := setFeedback_fields m1 y.w_aero
    have e := f1.trans a.pams
    obtain ⟨r, h7, ht7, e1, e2, e3, q1, q2, _, _, q3, q4, q5, q6, _, q7⟩ := energyBudget_ok h2
    have T : ∀ i, 0 ≤ m1.tn i ∧ 0 ≤ m1.ts i := by
      intro i
      rw [a.tn, a.ts]
      cases el : os.getLast? with
      | none => simp
      | some x => exact (IH x (List.mem_of_getLast? el)).1 i
    have N := subSteps_nonneg hs (setFeedback_ready a.ready y.w_aero) hp' (by rw [e]; exact ht)
      (by rw [e]; exact ho) (by rw [e]; exact hg) hwy.north hwy.south hwy.volcNorth hwy.volcSouth
      (by rw [f4, a.prevFn]; exact before_nonneg fun z hz => (hw z (by simp [hz])).north)
      (by rw [f5, a.prevFs]; exact before_nonneg fun z hz => (hw z (by simp [hz])).south)
      (by rw [f2]; exact fun i => (T i).1) (by rw [f3]; exact fun i => (T i).2) e1
    obtain ⟨N1, N2, N3⟩ := N
    intro o' ho'
    rw [List.mem_append, List.mem_singleton] at ho'
    rcases ho' with ho' | rfl
    · exact IH o' ho'
    · refine ⟨fun i => by rw [q1, q2]; exact ⟨N1 i, N2 i⟩, by rw [q3]; exact N3.an,
        by rw [q4]; exact N3.as, by rw [q5]; exact N3.sn, by rw [q6]; exact N3.ss, ?_⟩
      rw [q7, oceanTemperature_tot e3, e2]
      refine mul_nonneg (by unfold ohcUnit; norm_num) (Finset.sum_nonneg fun i _ => ?_)
      have sy := subSteps_same hs (setFeedback_ready a.ready y.w_aero) e1
      have e4 : r.1.p = p := sy.p.trans e
      refine mul_nonneg (dz_pos (by show 0 < r.1.p.mixed; rw [e4]; exact hp.mixed) i).le ?_
      show 0 ≤ r.1.p.foan * r.1.tn i + r.1.p.foas * r.1.ts i
      rw [e4]
      exact add_nonneg (mul_nonneg hp.north.le (N1 i)) (mul_nonneg hp.south.le (N2 i))

/-! ## The default parameters meet the hypotheses -/

/-- The default parameters (upwelling_diffusion_model.py:111-132), with the temperature dependence of
the upwelling switched off. -/
noncomputable def flatPams : Pams ℝ where
  rlamdo := 15
  akapa := 0.66
  cpi := 0.21
  W := 2.2
  beto := 6.9
  threstemp := 0
  lambda := 0.61
  mixed := 107
  foan := 0.61
  foas := 0.81
  ebbeta := 0
  lm := 40
  ldtime := 12
  ocean_efficacy := 1
  delta_lambda_aero := 0

theorem flat_physical : Physical flatPams := by
  constructor <;> simp only [flatPams] <;> norm_num

theorem flat_ordered : Ordered flatPams flatPams.W := by
  constructor <;> simp only [flatPams, year] <;> norm_num

theorem flat_gentle : Gentle flatPams flatPams.W := by
  constructor <;> simp only [flatPams, year, capacity] <;> norm_num

theorem flat_deep : Deep700 flatPams := by
  have : ⌊flatPams.mixed / 100⌋ = 1 := by
    rw [Int.floor_eq_iff]; constructor <;> simp only [flatPams] <;> norm_num
  constructor
  · simp only [flatPams]; norm_num
  · rw [this]; simp only [flatPams]; norm_num

theorem create_of {p : Pams ℝ} (hp : Physical p) (hl : 0 < p.lambda) : create p = .ok (init p) := by
  have hph : Phys (init p).p (init p).rlamda := by
    refine phys hp ?_
    show (0 : ℝ) < 1.0 / p.lambda
    rw [sci1]; positivity
  have hD : denom p (init p).gamn (init p).gams ≠ 0 := (denom_pos (init_ready p).base hph).ne'
  unfold create
  have h1 : p.ldtime ≠ 0 := by have := hp.steps; omega
  have h2 : ¬ p.lm < 2 := by have := hp.layers; omega
  rw [if_neg, if_neg h2, if_neg]
  · simpa [isEq, sci0] using hD
  · simp [isEq, sci0, h1, hl.ne', hp.south.ne', hp.exchange.ne']

theorem flat_created : create flatPams = .ok (init flatPams) :=
  create_of flat_physical (by simp only [flatPams]; norm_num)

theorem flat_feedback (w : ℝ) : 0 < feedback flatPams w := by
  simp only [feedback, flatPams]; norm_num

/-- A year of greenhouse warming with a (positive) monthly extra forcing. -/
noncomputable def warmYear : Year ℝ := ⟨0, 2, 1, List.replicate 12 0.5, List.replicate 12 0.5⟩

/-- Any number of years of warming forcing, with the default parameters and an exact solver: all
hypotheses of `C35_run_succeeds` and `C35_warming` are met. -/
example (n : ℕ) : ∃ outs m,
    run exactSolver (init flatPams) (List.replicate n warmYear) = .ok (outs, m) ∧
    outs.length = n ∧ ∀ o ∈ outs, 0 ≤ o.dtempnh_air ∧ 0 ≤ o.OHCTOT := by
  obtain ⟨outs, m, h, hl⟩ := C35_run_succeeds exactSolver_exact flat_physical rfl flat_ordered
    flat_deep flat_created (List.replicate n warmYear)
    (fun y hy => by rw [List.eq_of_mem_replicate hy]; constructor <;> simp [warmYear])
    (fun y _ => flat_feedback _)
  refine ⟨outs, m, h, by simpa using hl, fun o ho => ?_⟩
  have := C35_warming exactSolver_exact flat_physical rfl flat_ordered flat_gentle flat_created _
    (fun y hy => by
      rw [List.eq_of_mem_replicate hy]
      constructor <;> simp only [warmYear] <;> norm_num)
    (fun y _ => flat_feedback _) h o ho
  exact ⟨this.2.1, this.2.2.2.2.2⟩

/-- With the default threshold of 7 K the upwelling stays in range for every warming between 0 and
23 K, so the single-step theorems apply to it as well. -/
example (t : ℝ) (h0 : 0 ≤ t) (h1 : t ≤ 23) :
    Ordered { flatPams with threstemp := 7 } (upwelling { flatPams with threstemp := 7 } t) := by
  have e : upwelling { flatPams with threstemp := 7 } t = 2.2 * (1 - 0.3 * t / 7) := by
    simp only [upwelling, flatPams]; norm_num
  rw [e]
  refine ⟨?_, ?_, ?_, ?_⟩
  · linarith
  · simp only [flatPams, year]; norm_num; linarith
  · simp only [flatPams]; norm_num; linarith
  · simp only [flatPams]; norm_num

end Verif.Props.C35
