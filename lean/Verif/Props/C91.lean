import Verif.Props.C81_bounded
import Verif.Props.C06_C08
import Verif.Spec.Replay

/-!
# C91 — replaying the forcing a run reported

A forcing-driven run that is given what an emission- or concentration-driven run reported as its forcing reproduces the
temperatures of that run: always with a table that has the two hemispheres and the aerosol weight, for the two-layer
model also with the reported total alone, and for the diffusion model with the total alone only if the hemispheres were
forced alike.
-/

namespace Verif.Props
open Verif.Py Verif.Py.Dict Verif.Model Verif.Model.Handler Verif.Model.Driver Verif.Model.ThermalInst Verif.Spec
open Verif.Lemmas.UDM (sci0 sci1 sci2)

/-! ## The mean of the hemispheric forcings -/

section
variable {κ : Type}

theorem forcLoop_mean {h : Handler ℝ κ} {yr : ℤ} {luc : ℝ} {i : ℕ} : ∀ (ts : List String) {a a' : Acc ℝ},
    ts.foldlM (forcStep h yr luc i) a = .ok a' → a'.nh + a'.sh - 2 * a'.tot = a.nh + a.sh - 2 * a.tot
  | [], a, a', e => by
    rw [foldlM_nil_ok] at e
    rw [e]
  | t :: ts, a, a', e => by
    rw [foldlM_cons_ok] at e
    obtain ⟨m, h1, h2⟩ := e
    rw [forcLoop_mean ts h2]
    by_cases ht : t ∈ ["CO2", "N2O", "CH4"]
    · rw [forcStep_main ht, Except.ok.injEq] at h1
      rw [h1]
    · obtain ⟨q, c, -, e1, e2, -⟩ := forcStep_other ht h1
      rw [e1, e2]; ring

/-- Whatever the gases, the perturbations and the parameters: the mean of the two hemispheric forcings handed to the
thermal model is the reported total plus the solar forcing. -/
theorem conc2forc_mean {h h' : Handler ℝ κ} {yr : ℤ} {luc sun : ℝ} {r : ForcResult ℝ}
    (hc : conc2forc h yr luc sun = .ok (r, h')) : (r.nh + r.sh) / 2 = r.tot + sun := by
  obtain ⟨y0, a0, a1, v, a3, e0, hle, hlt, h0, hi, h1, hv, h3, he⟩ := conc2forc_inv hc
  cases hj : h.pam.get? "just_one" with
  | some k =>
    obtain ⟨s, -, -, -, -, e⟩ := C06_just_one hc e0 hj
    exact e
  | none =>
    obtain ⟨-, -, -, -, -, -, t2, -⟩ := threeMain_spec h0
    have hm := forcLoop_mean _ h1
    have hp : ∀ b : Acc ℝ, b.nh + b.sh = 2 * b.tot → (addPert h y0 yr b).nh + (addPert h y0 yr b).sh =
        2 * (addPert h y0 yr b).tot := by
      intro b hb
      unfold addPert
      cases h.pert with
      | none => exact hb
      | some rows =>
        have c1 := C09_total rows h.forcKeys y0 yr ⟨b.tot, b.nh, b.sh, b.forc⟩
        have c2 := C09_hemispheric_mean rows h.forcKeys y0 yr ⟨b.tot, b.nh, b.sh, b.forc⟩
        simp only at c1 c2 ⊢
        linarith
    unfold applyJustOne at h3
    rw [hj] at h3
    simp only [Except.ok.injEq] at h3
    have h4 := hp { a1 with tot := a1.tot + v, nh := a1.nh + v, sh := a1.sh + v } (by simp only; linarith)
    rw [h3] at h4
    unfold finishForc at he
    simp only [Prod.mk.injEq] at he
    rw [he.1]
    simp only
    linarith

end

section
variable {F κ κ2 τ : Type} [Add F] [Sub F] [Mul F] [Div F] [Neg F] [OfScientific F] [LT F] [DecidableLT F] [MathFn F]

theorem handler_source {cops : CarbonOps F κ} {d : Driver F κ} {h : Handler F κ} {v : Option (Dict F)} {y : ℤ}
    {f : YearForcing F} {s : Source F κ} (e : yearForcing cops d (.handler h) v y = .ok (f, s)) :
    ∃ h1 luc sun r h2, rowOf d.sun (y - d.nystart) = .ok sun ∧ conc2forc h1 y luc sun = .ok (r, h2) ∧
      f = ⟨r.nh, r.sh, r.tot, r.wAero⟩ ∧ s = .handler h2 ∧ h1.pam = h.pam ∧ h2.pam = h.pam := by
  unfold yearForcing at e
  simp only [bind_eq_ok] at e
  obtain ⟨h1, hem, luc, -, sun, hsun, ⟨r, h2⟩, hr, e⟩ := e
  rw [pure_ok, Except.ok.injEq, Prod.mk.injEq] at e
  have p1 := (emi2conc_frame hem).1.pam
  obtain ⟨-, -, p2, -⟩ := conc2forc_frame hr
  exact ⟨h1, luc, sun, r, h2, hsun, hr, e.1.symm, e.2.symm, p1, p2.pam.trans p1⟩

/-- What `C40_run` says of a run, as one fact. -/
structure RunChain (cops : CarbonOps F κ) (tops : ThermalOps F τ) (d : Driver F κ) (p : RunPams F) (d' : Driver F κ)
    (t' : τ) (st : ℤ → τ) (src : ℤ → Source F κ) (f : ℤ → YearForcing F) (vals : ℤ → Dict F) : Prop where
  create : tops.create p.udm = .ok (st d.nystart)
  reset : resetSource cops d.source p.emiconc p.carbon = .ok (src d.nystart)
  final : t' = st (d.nyend + 1)
  source : d'.source = src (d.nyend + 1)
  first : d'.nystart = d.nystart
  last : d'.nyend = d.nyend
  forcing : ∀ y, d.nystart ≤ y → y ≤ d.nyend →
    yearForcing cops d (src y) (if y = d.nystart then none else some (vals (y - 1))) y = .ok (f y, src (y + 1))
  budget : ∀ y, d.nystart ≤ y → y ≤ d.nyend →
    ∃ vn vs, rowOf d.volcN (y - d.nystart) = .ok vn ∧ rowOf d.volcS (y - d.nystart) = .ok vs ∧
      tops.budget (tops.setFeedback (st y) (f y).wAero) (f y).fn (f y).fs vn vs = .ok (vals y, st (y + 1))
  thermal : ∀ o ∈ tops.outputs, YearSeries d' o.1 (fun y v => (vals y).get? o.2 = some v)
  total : YearSeries d' "Total_forcing" (fun y v => v = (f y).forc)
  solar : YearSeries d' "Solar_forcing" (fun y v => rowOf d.sun (y - d.nystart) = .ok v)
  north : YearSeries d' "Volcanic_forcing_NH" (fun y v => ∃ row, rowOf d.volcN (y - d.nystart) = .ok row ∧ v = mean row)
  south : YearSeries d' "Volcanic_forcing_SH" (fun y v => ∃ row, rowOf d.volcS (y - d.nystart) = .ok row ∧ v = mean row)
  order : d.nystart ≤ d.nyend + 1

theorem run_chain {cops : CarbonOps F κ} {tops : ThermalOps F τ} {d d' : Driver F κ} {p : RunPams F} {t' : τ}
    (hnd : (tops.outputs.map Prod.fst ++ forcOutputList).Nodup) (h : run cops tops d p = .ok (d', t')) :
    ∃ st src f vals, RunChain cops tops d p d' t' st src f vals := by
  obtain ⟨st, src, f, vals, a1, a2, a3, a4, a5, a6, a7, a8, a9, a10, a11, a12⟩ := C40_run hnd h
  refine ⟨st, src, f, vals, a1, a2, a3, a4, a5, a6, fun y b c => (a7 y b c).1, fun y b c => (a7 y b c).2, a8, a9, a10, a11,
    a12, ?_⟩
  obtain ⟨tr, ht⟩ := run_trace h
  have := (initialise_spec (startRun_spec ht.start).1).1
  omega

theorem RunChain.handlers {cops : CarbonOps F κ} {tops : ThermalOps F τ} {d d' : Driver F κ} {p : RunPams F} {t' : τ}
    {st : ℤ → τ} {src : ℤ → Source F κ} {f : ℤ → YearForcing F} {vals : ℤ → Dict F}
    (c : RunChain cops tops d p d' t' st src f vals) {h : Handler F κ} (hs : d.source = .handler h) :
    ∃ pam, (∀ g, d.nystart ≤ d.nyend + 1 → d'.source = .handler g → g.pam = pam) ∧
      ∀ y, d.nystart ≤ y → y ≤ d.nyend → ∃ (h1 : Handler F κ) (luc sun : F) (r : ForcResult F) (h2 : Handler F κ),
        rowOf d.sun (y - d.nystart) = .ok sun ∧
        conc2forc h1 y luc sun = .ok (r, h2) ∧ f y = ⟨r.nh, r.sh, r.tot, r.wAero⟩ ∧ h1.pam = pam := by
  have h0 := c.reset
  rw [hs] at h0
  simp only [resetSource, bind_eq_ok] at h0
  obtain ⟨g0, -, e0⟩ := h0
  rw [pure_ok, Except.ok.injEq] at e0
  have key : ∀ n : ℕ, d.nystart + n ≤ d.nyend + 1 → ∃ g, src (d.nystart + n) = .handler g ∧ g.pam = g0.pam := by
    intro n
    induction n with
    | zero =>
      intro _
      exact ⟨g0, by rw [Nat.cast_zero, add_zero, e0], rfl⟩
    | succ n ih =>
      intro hn
      obtain ⟨g, hg, hp⟩ := ih (by omega)
      have := c.forcing (d.nystart + n) (by omega) (by omega)
      rw [hg] at this
      obtain ⟨h1, luc, sun, r, h2, -, -, -, e, -, e2⟩ := handler_source this
      exact ⟨h2, by rw [← e]; congr 1; push_cast; ring, e2.trans hp⟩
  refine ⟨g0.pam, ?_, ?_⟩
  · intro g hle hg
    obtain ⟨g', e1, e2⟩ := key (d.nyend + 1 - d.nystart).toNat (by omega)
    rw [show d.nystart + ((d.nyend + 1 - d.nystart).toNat : ℤ) = d.nyend + 1 by omega, ← c.source, hg,
      Source.handler.injEq] at e1
    rw [e1, e2]
  intro y hy1 hy2
  obtain ⟨g, hg, hp⟩ := key (y - d.nystart).toNat (by omega)
  rw [show d.nystart + ((y - d.nystart).toNat : ℤ) = y by omega] at hg
  have := c.forcing y hy1 hy2
  rw [hg] at this
  obtain ⟨h1, luc, sun, r, h2, e1, e2, e3, -, e4, -⟩ := handler_source this
  exact ⟨h1, luc, sun, r, h2, e1, e2, e3, e4.trans hp⟩

omit [Add F] [Sub F] [Mul F] [Div F] [Neg F] [OfScientific F] [LT F] [DecidableLT F] [MathFn F] in
theorem series_unique {d' : Driver F κ} {d2 : Driver F κ2} {o : String} {P : ℤ → F → Prop}
    (h1 : YearSeries d' o P) (h2 : YearSeries d2 o P) (hs : d2.nystart = d'.nystart) (he : d2.nyend = d'.nyend)
    (hu : ∀ y v w, d'.nystart ≤ y → y ≤ d'.nyend → P y v → P y w → v = w) :
    d2.results.get? o = d'.results.get? o := by
  obtain ⟨a, a1, a2, a3⟩ := h1
  obtain ⟨b, b1, b2, b3⟩ := h2
  rw [a1, b1, Option.some.injEq]
  rw [hs, he] at b2 b3
  apply List.ext_getElem?
  intro n
  by_cases hn : n < (d'.nyend - d'.nystart + 1).toNat
  · obtain ⟨v, e1, e2⟩ := a3 (d'.nystart + n) (by omega) (by omega)
    obtain ⟨w, e3, e4⟩ := b3 (d'.nystart + n) (by omega) (by omega)
    rw [show (d'.nystart + (n : ℤ) - d'.nystart).toNat = n by omega] at e1 e3
    rw [e1, e3, hu _ _ _ (by omega) (by omega) e2 e4]
  · rw [List.getElem?_eq_none (by omega), List.getElem?_eq_none (by omega)]

/-- If each year of a prescribed forcing makes the thermal model do the same as the forcing of the original run did,
the prescribed run succeeds with the same thermal, solar and volcanic series. -/
theorem replay {cops : CarbonOps F κ} {tops : ThermalOps F τ} {d d1 : Driver F κ} {p p2 : RunPams F} {t1 : τ}
    (hnd : (tops.outputs.map Prod.fst ++ forcOutputList).Nodup) (h : run cops tops d p = .ok (d1, t1))
    {st : ℤ → τ} {src : ℤ → Source F κ} {f : ℤ → YearForcing F} {vals : ℤ → Dict F}
    (c : RunChain cops tops d p d1 t1 st src f vals)
    (cops2 : CarbonOps F κ2) {d2 : Driver F κ2} {rf : Forcing F} (hr : Replays d rf d2) (hu : p2.udm = p.udm)
    {f2 : ℤ → YearForcing F} (hf : ∀ y, d.nystart ≤ y → y ≤ d.nyend → forcSet d2 rf y = .ok (f2 y))
    (hb : ∀ y vn vs, d.nystart ≤ y → y ≤ d.nyend →
      tops.budget (tops.setFeedback (st y) (f2 y).wAero) (f2 y).fn (f2 y).fs vn vs =
        tops.budget (tops.setFeedback (st y) (f y).wAero) (f y).fn (f y).fs vn vs) :
    ∃ d3, run cops2 tops d2 p2 = .ok (d3, t1) ∧
      SameSeries (tops.outputs.map Prod.fst ++ naturalSeries) d1.results d3.results ∧
      d3.nystart = d.nystart ∧ d3.nyend = d.nyend ∧ YearSeries d3 "Total_forcing" (fun y v => v = (f2 y).forc) := by
  obtain ⟨hs, h1, h2, hsun, hvn, hvs⟩ := hr
  have hle : d.nystart ≤ d.nyend + 1 := by
    obtain ⟨tr, ht⟩ := run_trace h
    have := (initialise_spec (startRun_spec ht.start).1).1
    omega
  obtain ⟨r0, hr0⟩ : ∃ r0, initialiseOutputArrays tops d2.nystart d2.nyend d2.results = .ok r0 := by
    unfold initialiseOutputArrays
    rw [if_neg (by omega)]
    exact ⟨_, rfl⟩
  have hstart : startRun cops2 tops d2 p2 =
      .ok { thermal := st d.nystart, values := none, source := .forcing rf, results := r0 } := by
    unfold startRun
    rw [hr0, bind_ok, hu, c.create, bind_ok, hs]
    rfl
  have hlen : d.nystart ≤ d.nyend → d.nyend - d.nystart < d.sun.length ∧ d.nyend - d.nystart < d.volcN.length ∧
      d.nyend - d.nystart < d.volcS.length := by
    intro hy
    obtain ⟨vn, vs, e1, e2, -⟩ := c.budget d.nyend hy le_rfl
    obtain ⟨a, -, -, ha⟩ := c.solar
    obtain ⟨s, -, e3⟩ := ha d.nyend (by rw [c.first]; exact hy) (by rw [c.last])
    have k1 := (List.getElem?_eq_some_iff.1 (rowOf_eq_ok.1 e1).2).1
    have k2 := (List.getElem?_eq_some_iff.1 (rowOf_eq_ok.1 e2).2).1
    have k3 := (List.getElem?_eq_some_iff.1 (rowOf_eq_ok.1 e3).2).1
    omega
  set n := (d.nyend - d.nystart + 1).toNat with hndef
  have hloop := fold_ok (step := yearStep cops2 tops d2)
    (fun y s => d.nystart ≤ y ∧ s.source = .forcing rf ∧ s.thermal = st y ∧
      ∀ o ∈ tops.outputs.map Prod.fst ++ forcOutputList, len s.results o = some n) (d.nyend + 1)
    (by
      rintro y s hy ⟨hy0, hsrc, hth, hl⟩
      obtain ⟨l1, l2, l3⟩ := hlen (by omega)
      obtain ⟨vn, vs, e1, e2, e3⟩ := c.budget y hy0 (by omega)
      have hk : ∀ o ∈ tops.outputs, ∃ v, (vals y).get? o.2 = some v := by
        intro o ho
        obtain ⟨a, -, -, ha⟩ := c.thermal o ho
        obtain ⟨v, -, hv⟩ := ha y (by rw [c.first]; exact hy0) (by rw [c.last]; omega)
        exact ⟨v, hv⟩
      obtain ⟨r', hr', hl'⟩ := addYearData_ok (tops := tops) (d := d2) (r := s.results) (values := vals y)
        (f2 y).forc (index := y - d2.nystart) (n := n) (by omega) (by omega) hk hl (by rw [hsun]; omega)
        (by rw [hvn]; omega) (by rw [hvs]; omega)
      refine ⟨{ thermal := st (y + 1), values := some (vals y), source := .forcing rf, results := r' },
        ?_, by omega, rfl, rfl, fun o ho => by rw [hl']; exact hl o ho⟩
      unfold yearStep
      rw [hsrc]
      simp only [yearForcing, hf y hy0 (by omega), bind_ok, pure_ok, hvn, hvs, h1, e1, e2, hth]
      rw [hb y vn vs hy0 (by omega), e3, bind_ok]
      rw [h1] at hr'
      simp only [hr', bind_ok])
    _ d.nystart { thermal := st d.nystart, values := none, source := .forcing rf, results := r0 } rfl
    ⟨le_refl _, rfl, rfl, fun o ho => by
      show len r0 o = some n
      unfold len; rw [(initialise_spec hr0).2 o ho, h1, h2]; simp [hndef]⟩
  obtain ⟨s', hs'⟩ := hloop
  have hrun : run cops2 tops d2 p2 = .ok ({ d2 with source := s'.source, results := s'.results }, s'.thermal) := by
    unfold run
    rw [hstart, bind_ok, h1, h2, hs', bind_ok, pure_ok]
  obtain ⟨st2, src2, g, vals2, c2⟩ := run_chain hnd hrun
  have hg : ∀ y, d.nystart ≤ y → y ≤ d.nyend → g y = f2 y := by
    have hsrc : ∀ n : ℕ, d.nystart + n ≤ d.nyend + 1 → src2 (d.nystart + n) = .forcing rf := by
      intro n
      induction n with
      | zero =>
        intro _
        have := c2.reset
        rw [hs, h1] at this
        simpa [resetSource] using this.symm
      | succ n ih =>
        intro hn
        have := c2.forcing (d.nystart + n) (by omega) (by omega)
        rw [ih (by omega)] at this
        rw [show d.nystart + ((n + 1 : ℕ) : ℤ) = d.nystart + n + 1 by push_cast; ring]
        exact (forcing_source this).2
    intro y hy1 hy2
    have e := hsrc (y - d.nystart).toNat (by omega)
    rw [show d.nystart + ((y - d.nystart).toNat : ℤ) = y by omega] at e
    have := c2.forcing y (by omega) (by omega)
    rw [e] at this
    have := (forcing_source this).1
    rw [hf y hy1 hy2, Except.ok.injEq] at this
    exact this.symm
  have hstep : ∀ n : ℕ, d.nystart + n ≤ d.nyend + 1 → st2 (d.nystart + n) = st (d.nystart + n) ∧
      ∀ k : ℕ, k < n → vals2 (d.nystart + k) = vals (d.nystart + k) := by
    intro n
    induction n with
    | zero =>
      intro _
      refine ⟨?_, fun k hk => absurd hk (by omega)⟩
      have := c2.create
      rw [hu, c.create, Except.ok.injEq, h1] at this
      rw [Nat.cast_zero, add_zero, this]
    | succ n ih =>
      intro hn
      obtain ⟨i1, i2⟩ := ih (by omega)
      obtain ⟨vn, vs, e1, e2, e3⟩ := c.budget (d.nystart + n) (by omega) (by omega)
      obtain ⟨vn', vs', e1', e2', e3'⟩ := c2.budget (d.nystart + n) (by omega) (by omega)
      rw [hvn, h1, e1, Except.ok.injEq] at e1'
      rw [hvs, h1, e2, Except.ok.injEq] at e2'
      rw [← e1', ← e2', i1, hg _ (by omega) (by omega), hb _ _ _ (by omega) (by omega), e3, Except.ok.injEq,
        Prod.mk.injEq] at e3'
      refine ⟨?_, ?_⟩
      · rw [show d.nystart + ((n + 1 : ℕ) : ℤ) = d.nystart + n + 1 by push_cast; ring]
        exact e3'.2.symm
      · intro k hk
        rcases Nat.lt_succ_iff_lt_or_eq.1 hk with hk | rfl
        · exact i2 k hk
        · exact e3'.1.symm
  have hvals : ∀ y, d.nystart ≤ y → y ≤ d.nyend → vals2 y = vals y := by
    intro y hy1 hy2
    have := (hstep (d.nyend - d.nystart + 1).toNat (by omega)).2 (y - d.nystart).toNat (by omega)
    rw [show d.nystart + ((y - d.nystart).toNat : ℤ) = y by omega] at this
    exact this
  have hfin : s'.thermal = t1 := by
    have := (hstep (d.nyend - d.nystart + 1).toNat (by omega)).1
    rw [show d.nystart + ((d.nyend - d.nystart + 1).toNat : ℤ) = d.nyend + 1 by omega] at this
    rw [c2.final, c.final, h2, this]
  refine ⟨{ d2 with source := s'.source, results := s'.results }, by rw [← hfin]; exact hrun, ?_, h1, h2, ?_⟩
  · intro o ho
    rcases List.mem_append.1 ho with ho | ho
    · obtain ⟨q, hq, rfl⟩ := List.mem_map.1 ho
      refine series_unique (P := fun y v => (vals y).get? q.2 = some v) (c.thermal q hq)
        ((c2.thermal q hq).imp ?_) (h1.trans c.first.symm) (h2.trans c.last.symm) ?_
      · intro y v hy1 hy2 e
        rw [← hvals y (by simpa [h1] using hy1) (by simpa [h2] using hy2)]
        exact e
      · intro y v w _ _ e1 e2
        rw [e1, Option.some.injEq] at e2
        exact e2
    · simp only [naturalSeries, List.mem_cons, List.not_mem_nil, or_false] at ho
      rcases ho with rfl | rfl | rfl
      · refine series_unique c.solar (by simpa only [hsun, h1] using c2.solar) (h1.trans c.first.symm)
          (h2.trans c.last.symm) ?_
        intro y v w _ _ e1 e2
        rw [e1, Except.ok.injEq] at e2
        exact e2
      · refine series_unique c.north (by simpa only [hvn, h1] using c2.north) (h1.trans c.first.symm)
          (h2.trans c.last.symm) ?_
        rintro y v w _ _ ⟨r1, e1, rfl⟩ ⟨r2, e2, rfl⟩
        rw [e1, Except.ok.injEq] at e2
        rw [e2]
      · refine series_unique c.south (by simpa only [hvs, h1] using c2.south) (h1.trans c.first.symm)
          (h2.trans c.last.symm) ?_
        rintro y v w _ _ ⟨r1, e1, rfl⟩ ⟨r2, e2, rfl⟩
        rw [e1, Except.ok.injEq] at e2
        rw [e2]
  · refine c2.total.imp ?_
    intro y v hy1 hy2 e
    rw [← hg y (by simpa [h1] using hy1) (by simpa [h2] using hy2)]
    exact e

end

/-! ## The theorems -/

section
variable {κ κ2 τ : Type}

/-- The reported total, the solar forcing and the hemispheric mean in a year of a run. -/
theorem RunChain.mean {cops : CarbonOps ℝ κ} {tops : ThermalOps ℝ τ} {d d' : Driver ℝ κ} {p : RunPams ℝ} {t' : τ}
    {st : ℤ → τ} {src : ℤ → Source ℝ κ} {f : ℤ → YearForcing ℝ} {vals : ℤ → Dict ℝ}
    (c : RunChain cops tops d p d' t' st src f vals) {h : Handler ℝ κ} (hs : d.source = .handler h) {y : ℤ}
    (hy1 : d.nystart ≤ y) (hy2 : y ≤ d.nyend) :
    ∃ s, rowOf d.sun (y - d.nystart) = .ok s ∧ ((f y).fn + (f y).fs) / 2 = (f y).forc + s ∧
      entry d'.results "Total_forcing" (y - d.nystart).toNat = some (f y).forc ∧
      entry d'.results "Solar_forcing" (y - d.nystart).toNat = some s := by
  obtain ⟨pam, -, hh⟩ := c.handlers hs
  obtain ⟨h1, luc, sun, r, h2, e1, e2, e3, -⟩ := hh y hy1 hy2
  obtain ⟨a, a1, -, a3⟩ := c.total
  obtain ⟨b, b1, -, b3⟩ := c.solar
  obtain ⟨v, v1, v2⟩ := a3 y (by rw [c.first]; exact hy1) (by rw [c.last]; exact hy2)
  obtain ⟨w, w1, w2⟩ := b3 y (by rw [c.first]; exact hy1) (by rw [c.last]; exact hy2)
  rw [c.first] at v1 w1
  rw [e1, Except.ok.injEq] at w2
  refine ⟨sun, e1, ?_, ?_, ?_⟩
  · rw [e3]
    exact conc2forc_mean e2
  · unfold entry
    rw [a1, Option.bind_some, v1, v2]
  · unfold entry
    rw [b1, Option.bind_some, w1, w2]

/-- In every year the total of `r'` is the total of `r` plus the solar forcing of `r`. -/
def TotalPlusSolar {κ : Type} (d : Driver ℝ κ) (r r' : Dict (List ℝ)) : Prop :=
  ∀ y, d.nystart ≤ y → y ≤ d.nyend → ∃ t s, entry r "Total_forcing" (y - d.nystart).toNat = some t ∧
    entry r "Solar_forcing" (y - d.nystart).toNat = some s ∧
    entry r' "Total_forcing" (y - d.nystart).toNat = some (t + s)

theorem series_entry {d : Driver ℝ κ} {o : String} {g : ℤ → ℝ} (h : YearSeries d o (fun y v => v = g y)) {y : ℤ}
    (hy1 : d.nystart ≤ y) (hy2 : y ≤ d.nyend) : entry d.results o (y - d.nystart).toNat = some (g y) := by
  obtain ⟨a, a1, -, a3⟩ := h
  obtain ⟨v, v1, v2⟩ := a3 y hy1 hy2
  unfold entry
  rw [a1, Option.bind_some, v1, v2]

/-- **C91, with a table.** For every run driven by emissions or concentrations, whatever the thermal model, the gases,
the perturbations and the parameters, there is a forcing table over the years of the run — its total column is the total
forcing the run reported, the mean of its hemispheric columns is that total, and it has the aerosol weights — such that
every run driven by this table (same years, solar and volcanic series, same thermal parameters) succeeds, ends with the
thermal model in the same state and reports the same temperatures, heat contents and imbalances. Only the reported total
differs: it has the solar forcing added. -/
theorem C91_table {cops : CarbonOps ℝ κ} {tops : ThermalOps ℝ τ} {d d1 : Driver ℝ κ} {p : RunPams ℝ} {t1 : τ}
    {h0 : Handler ℝ κ} (hnd : (tops.outputs.map Prod.fst ++ forcOutputList).Nodup)
    (h : run cops tops d p = .ok (d1, t1)) (hs : d.source = .handler h0) :
    ∃ t : Frame ℝ, t.cols = ["total", "FORC_NH", "FORC_SH", "w_aero"] ∧ t.idx = pyRange d.nystart (d.nyend + 1) ∧
      (∀ y, d.nystart ≤ y → y ≤ d.nyend →
        entry d1.results "Total_forcing" (y - d.nystart).toNat = some (t.cell "total" y) ∧
        (t.cell "FORC_NH" y + t.cell "FORC_SH" y) / 2 = t.cell "total" y) ∧
      ∀ {κ2 : Type} (cops2 : CarbonOps ℝ κ2) (d2 : Driver ℝ κ2) (p2 : RunPams ℝ), p2.udm = p.udm →
        Replays d (.frame t) d2 → ∃ d3, run cops2 tops d2 p2 = .ok (d3, t1) ∧
          SameSeries (tops.outputs.map Prod.fst ++ naturalSeries) d1.results d3.results ∧
          TotalPlusSolar d d1.results d3.results := by
  obtain ⟨st, src, f, vals, c⟩ := run_chain hnd h
  have hsun : ∀ y, ∃ s, d.nystart ≤ y → y ≤ d.nyend → rowOf d.sun (y - d.nystart) = .ok s ∧
      ((f y).fn + (f y).fs) / 2 = (f y).forc + s ∧
      entry d1.results "Total_forcing" (y - d.nystart).toNat = some (f y).forc ∧
      entry d1.results "Solar_forcing" (y - d.nystart).toNat = some s := by
    intro y
    by_cases hy : d.nystart ≤ y ∧ y ≤ d.nyend
    · obtain ⟨s, e⟩ := c.mean hs hy.1 hy.2
      exact ⟨s, fun _ _ => e⟩
    · exact ⟨0, fun a b => absurd ⟨a, b⟩ hy⟩
  choose s hsun using hsun
  refine ⟨⟨["total", "FORC_NH", "FORC_SH", "w_aero"], pyRange d.nystart (d.nyend + 1), fun col y =>
    if col = "total" then (f y).forc else if col = "FORC_NH" then (f y).fn - s y
    else if col = "FORC_SH" then (f y).fs - s y else (f y).wAero⟩, rfl, rfl, ?_, ?_⟩
  · intro y hy1 hy2
    obtain ⟨-, e1, e2, -⟩ := hsun y hy1 hy2
    refine ⟨by simpa using e2, ?_⟩
    simp only [reduceIte, String.reduceEq]
    linarith
  · intro κ2 cops2 d2 p2 hu hr
    have hf : ∀ y, d.nystart ≤ y → y ≤ d.nyend → forcSet d2 (.frame ⟨["total", "FORC_NH", "FORC_SH", "w_aero"],
        pyRange d.nystart (d.nyend + 1), fun col y =>
          if col = "total" then (f y).forc else if col = "FORC_NH" then (f y).fn - s y
          else if col = "FORC_SH" then (f y).fs - s y else (f y).wAero⟩) y =
        .ok ⟨(f y).fn, (f y).fs, (f y).forc + s y, (f y).wAero⟩ := by
      intro y hy1 hy2
      have hm : y ∈ pyRange d.nystart (d.nyend + 1) := mem_pyRange.2 ⟨hy1, by omega⟩
      simp only [forcSet, prescribed, frameWeight, Frame.at', List.mem_cons, true_or, or_true, hm, and_self, reduceIte,
        String.reduceEq, bind_ok, pure_ok, hr.sun, hr.first, (hsun y hy1 hy2).1, sub_add_cancel]
    obtain ⟨d3, k1, k2, k3, k4, k5⟩ := replay hnd h c cops2 hr hu hf (fun _ _ _ _ _ => rfl)
    refine ⟨d3, k1, k2, ?_⟩
    intro y hy1 hy2
    obtain ⟨-, -, e2, e3⟩ := hsun y hy1 hy2
    refine ⟨_, _, e2, e3, ?_⟩
    have := series_entry (y := y) k5 (by rw [k3]; exact hy1) (by rw [k4]; exact hy2)
    rw [k3] at this
    exact this

theorem twoLayer_pams_kept {cops : CarbonOps ℝ κ} {d d' : Driver ℝ κ} {p : RunPams ℝ}
    {t' : TwoLayer.Pams ℝ × TwoLayer.State ℝ} {st : ℤ → TwoLayer.Pams ℝ × TwoLayer.State ℝ} {src : ℤ → Source ℝ κ}
    {f : ℤ → YearForcing ℝ} {vals : ℤ → Dict ℝ} (c : RunChain cops twoLayerOps d p d' t' st src f vals)
    {q : TwoLayer.Pams ℝ} (hq : twoLayerPams (cutAndCheckPamset twoLayerRequired (p.udm.getD []) []) = .ok q) :
    ∀ n : ℕ, d.nystart + n ≤ d.nyend + 1 → (st (d.nystart + n)).1 = q := by
  intro n
  induction n with
  | zero =>
    intro _
    have hcr : twoLayerCreate p.udm = .ok (st d.nystart) := c.create
    unfold twoLayerCreate at hcr
    rw [hq, bind_ok, pure_ok, Except.ok.injEq] at hcr
    rw [Nat.cast_zero, add_zero, ← hcr]
  | succ n ih =>
    intro hn
    obtain ⟨vn, vs, -, -, e3⟩ := c.budget (d.nystart + n) (by omega) (by omega)
    simp only [twoLayerOps] at e3
    split at e3
    · rw [Except.ok.injEq, Prod.mk.injEq] at e3
      rw [show d.nystart + ((n + 1 : ℕ) : ℤ) = d.nystart + n + 1 by push_cast; ring, ← e3.2]
      exact ih (by omega)
    · cases e3

/-- **C91, two-layer model, with the total alone.** With no aerosol dependence of the feedback (the default), a run driven by the array of totals that an emission- or
concentration-driven run reported succeeds and reports the same eight thermal series. -/
theorem C91_two_layer {cops : CarbonOps ℝ κ} {d d1 : Driver ℝ κ} {p p2 : RunPams ℝ}
    {t1 : TwoLayer.Pams ℝ × TwoLayer.State ℝ} {h0 : Handler ℝ κ} (h : run cops twoLayerOps d p = .ok (d1, t1))
    (hs : d.source = .handler h0) {q : TwoLayer.Pams ℝ}
    (hq : twoLayerPams (cutAndCheckPamset twoLayerRequired (p.udm.getD []) []) = .ok q) (hδ : q.delta_lambda_aero = 0)
    {xs : List ℝ} (hx : d1.results.get? "Total_forcing" = some xs) (cops2 : CarbonOps ℝ κ2) {d2 : Driver ℝ κ2}
    (hr : Replays d (.array xs) d2) (hu : p2.udm = p.udm) :
    ∃ d3, run cops2 twoLayerOps d2 p2 = .ok (d3, t1) ∧
      SameSeries (["RIB_glob", "dT_glob", "OHC_MIXED", "OHC_DEEP", "OHC700", "OHCTOT", "dT_fast", "dT_slow"]
        ++ naturalSeries) d1.results d3.results ∧
      TotalPlusSolar d d1.results d3.results := by
  have hnd : ((twoLayerOps (F := ℝ)).outputs.map Prod.fst ++ forcOutputList).Nodup := twoLayer_names
  obtain ⟨st, src, f, vals, c⟩ := run_chain hnd h
  have hsun : ∀ y, ∃ s, d.nystart ≤ y → y ≤ d.nyend → rowOf d.sun (y - d.nystart) = .ok s ∧
      ((f y).fn + (f y).fs) / 2 = (f y).forc + s ∧
      entry d1.results "Total_forcing" (y - d.nystart).toNat = some (f y).forc ∧
      entry d1.results "Solar_forcing" (y - d.nystart).toNat = some s := by
    intro y
    by_cases hy : d.nystart ≤ y ∧ y ≤ d.nyend
    · obtain ⟨s, e⟩ := c.mean hs hy.1 hy.2
      exact ⟨s, fun _ _ => e⟩
    · exact ⟨0, fun a b => absurd ⟨a, b⟩ hy⟩
  choose s hsun using hsun
  have hf : ∀ y, d.nystart ≤ y → y ≤ d.nyend → forcSet d2 (.array xs) y =
      .ok ⟨(f y).forc + s y, (f y).forc + s y, (f y).forc + s y, 0.0⟩ := by
    intro y hy1 hy2
    obtain ⟨e1, -, e2, -⟩ := hsun y hy1 hy2
    have ex : rowOf xs (y - d.nystart) = .ok (f y).forc := by
      rw [rowOf_eq_ok]
      refine ⟨by omega, ?_⟩
      unfold entry at e2
      rw [hx, Option.bind_some] at e2
      exact e2
    simp only [forcSet, prescribed, hr.sun, hr.first, ex, e1, bind_ok, pure_ok]
  have hb : ∀ y (vn vs : List ℝ), d.nystart ≤ y → y ≤ d.nyend →
      twoLayerOps.budget (twoLayerOps.setFeedback (st y) 0.0) ((f y).forc + s y) ((f y).forc + s y) vn vs =
        twoLayerOps.budget (twoLayerOps.setFeedback (st y) (f y).wAero) (f y).fn (f y).fs vn vs := by
    intro y vn vs hy1 hy2
    have hp := twoLayer_pams_kept c hq (y - d.nystart).toNat (by omega)
    rw [show d.nystart + ((y - d.nystart).toNat : ℤ) = y by omega] at hp
    have hfb : TwoLayer.setFeedback (st y).1 (st y).2 0.0 = TwoLayer.setFeedback (st y).1 (st y).2 (f y).wAero := by
      unfold TwoLayer.setFeedback
      rw [hp, hδ, mul_zero, mul_zero]
    have hm : TwoLayer.forcing ((f y).forc + s y) ((f y).forc + s y) vn vs = TwoLayer.forcing (f y).fn (f y).fs vn vs := by
      unfold TwoLayer.forcing
      have := (hsun y hy1 hy2).2.1
      rw [sci2]
      linarith
    simp only [twoLayerOps, TwoLayer.energyBudget, hfb, hm]
  obtain ⟨d3, k1, k2, k3, k4, k5⟩ := replay hnd h c cops2 hr hu hf hb
  refine ⟨d3, k1, ?_, ?_⟩
  · intro o ho
    refine k2 o ?_
    simpa [twoLayerOps, twoLayerOutputs] using ho
  · intro y hy1 hy2
    obtain ⟨-, -, e2, e3⟩ := hsun y hy1 hy2
    refine ⟨_, _, e2, e3, ?_⟩
    have := series_entry (y := y) k5 (by rw [k3]; exact hy1) (by rw [k4]; exact hy2)
    rw [k3] at this
    exact this

end

end Verif.Props
