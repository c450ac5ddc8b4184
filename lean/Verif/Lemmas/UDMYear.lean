import Verif.Lemmas.UDM
import Verif.Lemmas.Handler

/-!
# The upwelling-diffusion model over the reals: a year and a run
-/

namespace Verif.Lemmas.UDM
open Verif.Py Verif.Model.UDM Verif.Spec.Tridiag Verif.Lemmas
open Verif.Model.Handler (foldlM_nil_ok foldlM_cons_ok)
open Finset (range)

/-- Induction along a fold over `range n`. -/
theorem foldlM_range_inv {ε β : Type} {f : β → ℕ → Except ε β} (P : ℕ → β → Prop) {n : ℕ} {b c : β}
    (h0 : P 0 b) (hstep : ∀ k < n, ∀ b b', P k b → f b k = .ok b' → P (k + 1) b')
    (h : (List.range n).foldlM f b = .ok c) : P n c := by
  induction n generalizing c with
  | zero => simp only [List.range_zero] at h; rw [foldlM_nil_ok] at h; rw [h]; exact h0
  | succ n ih =>
    rw [List.range_succ, List.foldlM_append, bind_eq_ok] at h
    obtain ⟨d, hd, h⟩ := h
    have hP := ih (fun k hk => hstep k (by omega)) hd
    obtain ⟨b', h1, h2⟩ := foldlM_cons_ok.1 h
    rw [foldlM_nil_ok] at h2
    rw [h2]
    exact hstep n (by omega) d b' hP h1

/-- Success of a fold over `range n`. -/
theorem foldlM_range_ok {ε β : Type} {f : β → ℕ → Except ε β} (P : ℕ → β → Prop) {n : ℕ} {b : β}
    (h0 : P 0 b) (hstep : ∀ k < n, ∀ b, P k b → ∃ b', f b k = .ok b' ∧ P (k + 1) b') :
    ∃ c, (List.range n).foldlM f b = .ok c ∧ P n c := by
  induction n with
  | zero => exact ⟨b, by simp [pure_ok], h0⟩
  | succ n ih =>
    obtain ⟨d, hd, hP⟩ := ih (fun k hk => hstep k (by omega))
    obtain ⟨c, hc, hPc⟩ := hstep n (by omega) d hP
    refine ⟨c, ?_, hPc⟩
    rw [List.range_succ, List.foldlM_append, hd, bind_ok, List.foldlM_cons, hc, bind_ok,
      List.foldlM_nil]
    rfl

section
variable {solve : Solver ℝ}

/-- The forcing applied in sub-step `im` of a year. -/
noncomputable def applied (m : Model ℝ) (fn fs : ℝ) (vn vs : List ℝ) (im : ℕ) : ℝ × ℝ :=
  (rampForcing m.p.ldtime im fn m.prevFn (vn.getD (im % vn.length) 0),
   rampForcing m.p.ldtime im fs m.prevFs (vs.getD (im % vn.length) 0))

theorem volcAt_ok {vn s : List ℝ} {im : ℕ} {x : ℝ} (h : volcAt vn s im = .ok x) :
    x = s.getD (im % vn.length) 0 := by
  unfold volcAt at h
  split at h
  · cases h
  · split at h
    · rename_i y hy
      rw [List.getD_eq_getElem?_getD, hy]
      exact (Except.ok.inj h).symm
    · cases h

/-- What a sub-step does. -/
theorem subStep_spec (hs : Exact solve) {st st' : Model ℝ × Acc ℝ} (hr : Ready st.1) {fn fs : ℝ}
    {vn vs : List ℝ} {im : ℕ} (h : subStep solve fn fs vn vs st im = .ok st') :
    ∃ tn ts m1, m1 = refresh st.1 st.2.temp1n st.2.temp1s ∧
      Solves m1.p.lm m1.v.north.a m1.v.north.b m1.v.north.c
        (rhsNorth m1 (applied st.1 fn fs vn vs im).1 (applied st.1 fn fs vn vs im).2) tn ∧
      Solves m1.p.lm m1.v.south.a m1.v.south.b m1.v.south.c
        (rhsSouth m1 (applied st.1 fn fs vn vs im).1 (applied st.1 fn fs vn vs im).2) ts ∧
      (∀ i, m1.p.lm ≤ i → tn i = 0 ∧ ts i = 0) ∧
      st'.1 = { m1 with tn := tn, ts := ts } ∧
      st'.2 = accumulate m1 st.2 (applied st.1 fn fs vn vs im).1 (applied st.1 fn fs vn vs im).2
        (tn 0) (ts 0) := by
  obtain ⟨_, _, hp, _, _, _, hf1, hf2, _, _⟩ := refresh_spec hr st.2.temp1n st.2.temp1s
  unfold subStep at h
  simp only [bind_eq_ok, pure_ok, Except.ok.injEq] at h
  obtain ⟨vN, h1, vS, h2, tn, h3, ts, h4, h5⟩ := h
  rw [volcAt_ok h1, volcAt_ok h2, hp, hf1, hf2] at h3 h4 h5
  rw [← hp] at h3 h4
  have s1 := hs.sound _ _ _ _ _ _ h3
  have s2 := hs.sound _ _ _ _ _ _ h4
  rw [hp] at s1 s2
  refine ⟨tn, ts, _, rfl, ?_, ?_, ?_, ?_, ?_⟩
  · rw [hp]; exact s1.1
  · rw [hp]; exact s2.1
  · rw [hp]; exact fun i hi => ⟨s1.2 i hi, s2.2 i hi⟩
  · rw [← h5]; simp only [hp, hf1, hf2]
  · rw [← h5]; rfl

/-- What stays the same within a year, and what stays up to date. -/
structure SameYear (m m' : Model ℝ) : Prop where
  ready : Ready m'
  p : m'.p = m.p
  rlamda : m'.rlamda = m.rlamda
  gamn : m'.gamn = m.gamn
  gams : m'.gams = m.gams
  prevFn : m'.prevFn = m.prevFn
  prevFs : m'.prevFs = m.prevFs

theorem SameYear.refl {m : Model ℝ} (h : Ready m) : SameYear m m := ⟨h, rfl, rfl, rfl, rfl, rfl, rfl⟩

theorem SameYear.trans {a b c : Model ℝ} (h : SameYear a b) (h' : SameYear b c) : SameYear a c :=
  ⟨h'.ready, h'.p.trans h.p, h'.rlamda.trans h.rlamda, h'.gamn.trans h.gamn, h'.gams.trans h.gams,
   h'.prevFn.trans h.prevFn, h'.prevFs.trans h.prevFs⟩

theorem SameYear.refresh {m : Model ℝ} (h : Ready m) (a b : ℝ) : SameYear m (refresh m a b) := by
  obtain ⟨h0, _, hp, hl, _, _, hf1, hf2, hg1, hg2⟩ := refresh_spec h a b
  exact ⟨h0, hp, hl, hg1, hg2, hf1, hf2⟩

theorem SameYear.withTemps {m : Model ℝ} (h : Ready m) (tn ts : ℕ → ℝ) :
    SameYear m { m with tn := tn, ts := ts } :=
  ⟨h.withTemps tn ts m.prevFn m.prevFs, rfl, rfl, rfl, rfl, rfl, rfl⟩

theorem SameYear.subStep (hs : Exact solve) {st st' : Model ℝ × Acc ℝ} (hr : Ready st.1) {fn fs : ℝ}
    {vn vs : List ℝ} {im : ℕ} (h : subStep solve fn fs vn vs st im = .ok st') :
    SameYear st.1 st'.1 := by
  obtain ⟨tn, ts, m1, hm1, _, _, _, h1, _⟩ := subStep_spec hs hr h
  have e := SameYear.refresh hr st.2.temp1n st.2.temp1s
  rw [← hm1] at e
  rw [h1]
  exact e.trans (SameYear.withTemps e.ready tn ts)

theorem SameYear.applied {m m' : Model ℝ} (h : SameYear m m') (fn fs : ℝ) (vn vs : List ℝ) (im : ℕ) :
    applied m' fn fs vn vs im = applied m fn fs vn vs im := by
  simp only [UDM.applied, h.p, h.prevFn, h.prevFs]

theorem subSteps_same (hs : Exact solve) {m : Model ℝ} (hr : Ready m) {fn fs : ℝ} {vn vs : List ℝ}
    {r : Model ℝ × Acc ℝ} (h : subSteps solve m fn fs vn vs = .ok r) : SameYear m r.1 := by
  unfold subSteps at h
  refine foldlM_range_inv (fun _ s => SameYear m s.1) (SameYear.refl hr) ?_ h
  intro k _ b b' hb hk
  exact hb.trans (SameYear.subStep hs hb.ready hk)

/-- Weighted temperature sum of the ocean. -/
noncomputable def heat (p : Pams ℝ) (tn ts : ℕ → ℝ) : ℝ :=
  ∑ i ∈ range p.lm, dz p i * (p.foan * tn i + p.foas * ts i)

theorem ldtime_ne {p : Pams ℝ} {r : ℝ} (hp : Phys p r) : (p.ldtime : ℝ) ≠ 0 := by
  have := hp.ldtime
  exact_mod_cast (by omega : p.ldtime ≠ 0)

/-- The heat budget of a year. -/
theorem subSteps_heat (hs : Exact solve) {m : Model ℝ} (hr : Ready m) (hp : Phys m.p m.rlamda)
    (he : m.p.ocean_efficacy = 1) {fn fs : ℝ} {vn vs : List ℝ} {r : Model ℝ × Acc ℝ}
    (h : subSteps solve m fn fs vn vs = .ok r) :
    c1 * (heat m.p r.1.tn r.1.ts - heat m.p m.tn m.ts)
      = dt m.p * (m.p.ldtime * m.p.rlamdo * (m.p.foan * (r.2.tempn_air - r.2.tempn_sea)
            + m.p.foas * (r.2.temps_air - r.2.temps_sea))
          + m.p.foan * m.p.foas * m.p.ebbeta / denom m.p m.gamn m.gams
            * ((m.tn 0 + m.ts 0) - (r.1.tn 0 + r.1.ts 0))) := by
  have hn := ldtime_ne hp
  unfold subSteps at h
  refine (foldlM_range_inv (fun _ s => SameYear m s.1 ∧
    c1 * (heat m.p s.1.tn s.1.ts - heat m.p m.tn m.ts)
      = dt m.p * (m.p.ldtime * m.p.rlamdo * (m.p.foan * (s.2.tempn_air - s.2.tempn_sea)
            + m.p.foas * (s.2.temps_air - s.2.temps_sea))
          + m.p.foan * m.p.foas * m.p.ebbeta / denom m.p m.gamn m.gams
            * ((m.tn 0 + m.ts 0) - (s.1.tn 0 + s.1.ts 0)))) ?_ ?_ h).2
  · refine ⟨SameYear.refl hr, ?_⟩
    simp [Acc.zero]
  · rintro k _ b b' ⟨hb, hbe⟩ hk
    obtain ⟨tn, ts, m1, hm1, hS1, hS2, _, e1, e2⟩ := subStep_spec hs hb.ready hk
    refine ⟨hb.trans (SameYear.subStep hs hb.ready hk), ?_⟩
    obtain ⟨hr1, hu, _, _, ht1, ht2, _, _, _, _⟩ := refresh_spec hb.ready b.2.temp1n b.2.temp1s
    have hm := hb.trans (SameYear.refresh hb.ready b.2.temp1n b.2.temp1s)
    rw [← hm1] at hr1 hu ht1 ht2 hm
    have hp1 : Phys m1.p m1.rlamda := by rw [hm.p, hm.rlamda]; exact hp
    have hbud := budget_step hr1.base hp1 hu _ _ tn ts hS1 hS2
    rw [hm.p, he, hm.gamn, hm.gams, ht1, ht2] at hbud
    rw [e1, e2]
    simp only [accumulate, mofInt, hm.p]
    have hd : heat m.p tn ts - heat m.p b.1.tn b.1.ts
        = ∑ i ∈ range m.p.lm, dz m.p i * (m.p.foan * tn i + m.p.foas * ts i)
          - ∑ i ∈ range m.p.lm, dz m.p i * (m.p.foan * b.1.tn i + m.p.foas * b.1.ts i) := rfl
    rw [← hd] at hbud
    have : ∀ x : ℝ, (m.p.ldtime : ℝ) * (x / m.p.ldtime) = x := fun x => by field_simp
    have hA := this (airNorth m1 (applied b.1 fn fs vn vs k).1 (applied b.1 fn fs vn vs k).2 (tn 0)
      (ts 0))
    have hB := this (airSouth m1 (applied b.1 fn fs vn vs k).1 (applied b.1 fn fs vn vs k).2 (tn 0)
      (ts 0))
    have hC := this (tn 0)
    have hD := this (ts 0)
    linear_combination hbe + hbud - dt m.p * m.p.rlamdo * (m.p.foan * (hA - hC)
      + m.p.foas * (hB - hD))

/-- The surface energy balance of a year. -/
theorem subSteps_balance (hs : Exact solve) {m : Model ℝ} (hr : Ready m) (hp : Phys m.p m.rlamda)
    {fn fs : ℝ} {vn vs : List ℝ} {r : Model ℝ × Acc ℝ}
    (h : subSteps solve m fn fs vn vs = .ok r) :
    m.rlamda * r.2.tempn_air + m.p.foan * m.p.rlamdo * (r.2.tempn_air - r.2.tempn_sea)
        + m.p.ebbeta * (r.2.tempn_air - r.2.temps_air)
      = (∑ im ∈ range m.p.ldtime.toNat, (applied m fn fs vn vs im).1) / m.p.ldtime ∧
    m.rlamda * r.2.temps_air + m.p.foas * m.p.rlamdo * (r.2.temps_air - r.2.temps_sea)
        + m.p.ebbeta * (r.2.temps_air - r.2.tempn_air)
      = (∑ im ∈ range m.p.ldtime.toNat, (applied m fn fs vn vs im).2) / m.p.ldtime := by
  have hn := ldtime_ne hp
  unfold subSteps at h
  refine (foldlM_range_inv (fun k s => SameYear m s.1 ∧
    (m.rlamda * s.2.tempn_air + m.p.foan * m.p.rlamdo * (s.2.tempn_air - s.2.tempn_sea)
        + m.p.ebbeta * (s.2.tempn_air - s.2.temps_air)
      = (∑ im ∈ range k, (applied m fn fs vn vs im).1) / m.p.ldtime) ∧
    m.rlamda * s.2.temps_air + m.p.foas * m.p.rlamdo * (s.2.temps_air - s.2.temps_sea)
        + m.p.ebbeta * (s.2.temps_air - s.2.tempn_air)
      = (∑ im ∈ range k, (applied m fn fs vn vs im).2) / m.p.ldtime) ?_ ?_ h).2
  · refine ⟨SameYear.refl hr, ?_, ?_⟩ <;> simp [Acc.zero, sci0]
  · rintro k _ b b' ⟨hb, hb1, hb2⟩ hk
    obtain ⟨tn, ts, m1, hm1, _, _, _, e1, e2⟩ := subStep_spec hs hb.ready hk
    refine ⟨hb.trans (SameYear.subStep hs hb.ready hk), ?_⟩
    have hm := hb.trans (SameYear.refresh hb.ready b.2.temp1n b.2.temp1s)
    rw [← hm1] at hm
    have hp1 : Phys m1.p m1.rlamda := by rw [hm.p, hm.rlamda]; exact hp
    have c1 := balance_north hm.ready.base hp1 (applied b.1 fn fs vn vs k).1
      (applied b.1 fn fs vn vs k).2 (tn 0) (ts 0)
    have c2 := balance_south hm.ready.base hp1 (applied b.1 fn fs vn vs k).1
      (applied b.1 fn fs vn vs k).2 (tn 0) (ts 0)
    rw [Finset.sum_range_succ, Finset.sum_range_succ, add_div, add_div, ← hb1, ← hb2, e2]
    rw [hm.p, hm.rlamda] at c1 c2
    simp only [accumulate, mofInt, hm.p]
    rw [hb.applied] at c1 c2 ⊢
    constructor
    · linear_combination c1 / m.p.ldtime
    · linear_combination c2 / m.p.ldtime

end
end Verif.Lemmas.UDM
