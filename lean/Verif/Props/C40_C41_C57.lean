import Verif.Lemmas.Driver
import Verif.Props.C01_C02
import Verif.Model.ThermalInst
import Verif.Py.RealInst
import Mathlib.Tactic.NormNum

/-!
# C40, C41, C57 — the run loop, forcing runs, and the standard output writer
-/

namespace Verif.Props
open Verif.Py Verif.Model Verif.Model.Handler Verif.Model.Driver Verif.Model.ThermalInst

section
variable {F κ τ : Type} [Add F] [Sub F] [Mul F] [Div F] [Neg F] [OfScientific F] [LT F] [DecidableLT F]
  [MathFn F]

/-- A result series with one entry per run year, the entry of year `y` satisfying `P y`. -/
def YearSeries (d : Driver F κ) (o : String) (P : ℤ → F → Prop) : Prop :=
  ∃ a, d.results.get? o = some a ∧ a.length = (d.nyend - d.nystart + 1).toNat ∧
    ∀ y, d.nystart ≤ y → y ≤ d.nyend → ∃ v, a[(y - d.nystart).toNat]? = some v ∧ P y v

theorem series_of_trace {cops : CarbonOps F κ} {tops : ThermalOps F τ} {d d' : Driver F κ}
    {p : RunPams F} {t' : τ} {tr : ℤ → RunState F κ τ} (ht : Trace cops tops d p d' t' tr)
    (hnd : (tops.outputs.map Prod.fst ++ forcOutputList).Nodup) {o : String}
    (ho : o ∈ tops.outputs.map Prod.fst ++ forcOutputList) {P : ℤ → F → Prop}
    (hP : ∀ y, d.nystart ≤ y → y ≤ d.nyend → ∃ v,
      entry (tr (y + 1)).results o (y - d.nystart).toNat = some v ∧ P y v) :
    YearSeries d' o P := by
  have hyears : d'.nystart = d.nystart ∧ d'.nyend = d.nyend := by rw [ht.last.1]; exact ⟨rfl, rfl⟩
  obtain ⟨hn, hinit⟩ := initialise_spec (startRun_spec ht.start).1
  have h0 : len (tr d.nystart).results o = some (d.nyend - d.nystart + 1).toNat := by
    unfold len; rw [hinit o ho]; simp
  have hadd : ∀ y, d.nystart ≤ y → y ≤ d.nyend → ∃ values f,
      addYearData tops d (tr y).results values f (y - d.nystart) = .ok (tr (y + 1)).results := by
    intro y h1 h2
    obtain ⟨f, vn, vs, values, -, -, -, -, -, e⟩ := yearStep_spec (ht.step y h1 h2)
    exact ⟨values, f.forc, e⟩
  have hlen : len (tr (d.nyend + 1)).results o = some (d.nyend - d.nystart + 1).toNat := by
    refine ht.keep (fun s => len s.results o = some (d.nyend - d.nystart + 1).toNat) d.nystart
      (d.nyend + 1) (by omega) ?_ h0
    intro y h1 h2 e
    obtain ⟨values, f, ha⟩ := hadd y h1 (by omega)
    rw [(addYearData_spec hnd ha).1, e]
  have hres : d'.results = (tr (d.nyend + 1)).results := by rw [ht.last.1]
  unfold len at hlen
  rw [← hres] at hlen
  cases hg : d'.results.get? o with
  | none => rw [hg] at hlen; cases hlen
  | some a =>
    rw [hg] at hlen
    simp only [Option.map_some, Option.some.injEq] at hlen
    refine ⟨a, hg, by rw [hyears.1, hyears.2]; exact hlen, ?_⟩
    rw [hyears.1, hyears.2]
    intro y h1 h2
    obtain ⟨v, hv, hp⟩ := hP y h1 h2
    refine ⟨v, ?_, hp⟩
    have hend : entry (tr (d.nyend + 1)).results o (y - d.nystart).toNat = some v := by
      refine ht.keep (fun s => entry s.results o (y - d.nystart).toNat = some v) (y + 1)
        (d.nyend + 1) (by omega) ?_ hv
      intro z h3 h4 e
      obtain ⟨values, f, ha⟩ := hadd z (by omega) (by omega)
      rw [(addYearData_spec hnd ha).2.1 o _ (by omega), e]
    unfold entry at hend
    rw [← hres, hg] at hend
    exact hend

/-- C40, main statement: a successful run is a chain of years. There is one thermal state, one source
state, one forcing and one thermal output per year such that the run starts from a freshly created
thermal model and a reset source, every year from `nystart` to `nyend` is computed from the state the
previous year left (and from the previous year's thermal output, none in the first year), and every
series of the results has exactly one entry per year, the one of that year. -/
theorem C40_run {cops : CarbonOps F κ} {tops : ThermalOps F τ} {d d' : Driver F κ}
    {p : RunPams F} {t' : τ} (hnd : (tops.outputs.map Prod.fst ++ forcOutputList).Nodup)
    (h : run cops tops d p = .ok (d', t')) :
    ∃ (st : ℤ → τ) (src : ℤ → Source F κ) (f : ℤ → YearForcing F) (vals : ℤ → Dict F),
      tops.create p.udm = .ok (st d.nystart) ∧
      resetSource cops d.source p.emiconc p.carbon = .ok (src d.nystart) ∧
      t' = st (d.nyend + 1) ∧ d'.source = src (d.nyend + 1) ∧
      d'.nystart = d.nystart ∧ d'.nyend = d.nyend ∧
      (∀ y, d.nystart ≤ y → y ≤ d.nyend →
        yearForcing cops d (src y) (if y = d.nystart then none else some (vals (y - 1))) y =
          .ok (f y, src (y + 1)) ∧
        ∃ vn vs, rowOf d.volcN (y - d.nystart) = .ok vn ∧ rowOf d.volcS (y - d.nystart) = .ok vs ∧
          tops.budget (tops.setFeedback (st y) (f y).wAero) (f y).fn (f y).fs vn vs =
            .ok (vals y, st (y + 1))) ∧
      (∀ o ∈ tops.outputs, YearSeries d' o.1 (fun y v => (vals y).get? o.2 = some v)) ∧
      YearSeries d' "Total_forcing" (fun y v => v = (f y).forc) ∧
      YearSeries d' "Solar_forcing" (fun y v => rowOf d.sun (y - d.nystart) = .ok v) ∧
      YearSeries d' "Volcanic_forcing_NH"
        (fun y v => ∃ row, rowOf d.volcN (y - d.nystart) = .ok row ∧ v = mean row) ∧
      YearSeries d' "Volcanic_forcing_SH"
        (fun y v => ∃ row, rowOf d.volcS (y - d.nystart) = .ok row ∧ v = mean row) := by
  obtain ⟨tr, ht⟩ := run_trace h
  obtain ⟨hi, hc, hr, hv⟩ := startRun_spec ht.start
  have hstep : ∀ y, ∃ f : YearForcing F, ∃ values : Dict F, d.nystart ≤ y → y ≤ d.nyend →
      yearForcing cops d (tr y).source (tr y).values y = .ok (f, (tr (y + 1)).source) ∧
      (∃ vn vs, rowOf d.volcN (y - d.nystart) = .ok vn ∧ rowOf d.volcS (y - d.nystart) = .ok vs ∧
        tops.budget (tops.setFeedback (tr y).thermal f.wAero) f.fn f.fs vn vs =
          .ok (values, (tr (y + 1)).thermal)) ∧
      (tr (y + 1)).values = some values ∧
      addYearData tops d (tr y).results values f.forc (y - d.nystart) = .ok (tr (y + 1)).results := by
    intro y
    by_cases h1 : d.nystart ≤ y ∧ y ≤ d.nyend
    · obtain ⟨f, vn, vs, values, a1, a2, a3, a4, a5, a6⟩ := yearStep_spec (ht.step y h1.1 h1.2)
      exact ⟨f, values, fun _ _ => ⟨a1, ⟨vn, vs, a2, a3, a4⟩, a5, a6⟩⟩
    · exact ⟨⟨0.0, 0.0, 0.0, 0.0⟩, [], fun x y => absurd ⟨x, y⟩ h1⟩
  choose f vals hf using hstep
  refine ⟨fun y => (tr y).thermal, fun y => (tr y).source, f, vals, hc, hr, ht.last.2, ?_, ?_, ?_,
    ?_, ?_, ?_, ?_, ?_, ?_⟩
  · rw [ht.last.1]
  · rw [ht.last.1]
  · rw [ht.last.1]
  · intro y h1 h2
    obtain ⟨a1, a2, -, -⟩ := hf y h1 h2
    refine ⟨?_, a2⟩
    have : (tr y).values = if y = d.nystart then none else some (vals (y - 1)) := by
      by_cases e : y = d.nystart
      · rw [if_pos e, e, hv]
      · rw [if_neg e]
        have := (hf (y - 1) (by omega) (by omega)).2.2.1
        rwa [show y - 1 + 1 = y by omega] at this
    rw [← this]
    exact a1
  · intro o ho
    refine series_of_trace ht hnd (List.mem_append_left _ (List.mem_map_of_mem ho)) ?_
    intro y h1 h2
    obtain ⟨-, -, -, a4⟩ := hf y h1 h2
    obtain ⟨v, e1, e2⟩ := (addYearData_spec hnd a4).2.2.1 o ho
    exact ⟨v, e2, e1⟩
  · refine series_of_trace ht hnd (List.mem_append_right _ (by simp [forcOutputList])) ?_
    intro y h1 h2
    obtain ⟨-, -, -, a4⟩ := hf y h1 h2
    exact ⟨_, (addYearData_spec hnd a4).2.2.2.1, rfl⟩
  · refine series_of_trace ht hnd (List.mem_append_right _ (by simp [forcOutputList])) ?_
    intro y h1 h2
    obtain ⟨-, -, -, a4⟩ := hf y h1 h2
    obtain ⟨s, e1, e2⟩ := (addYearData_spec hnd a4).2.2.2.2.1
    exact ⟨s, e2, e1⟩
  · refine series_of_trace ht hnd (List.mem_append_right _ (by simp [forcOutputList])) ?_
    intro y h1 h2
    obtain ⟨-, -, -, a4⟩ := hf y h1 h2
    obtain ⟨s, e1, e2⟩ := (addYearData_spec hnd a4).2.2.2.2.2.1
    exact ⟨_, e2, s, e1, rfl⟩
  · refine series_of_trace ht hnd (List.mem_append_right _ (by simp [forcOutputList])) ?_
    intro y h1 h2
    obtain ⟨-, -, -, a4⟩ := hf y h1 h2
    obtain ⟨s, e1, e2⟩ := (addYearData_spec hnd a4).2.2.2.2.2.2
    exact ⟨_, e2, s, e1, rfl⟩

/-- C40, the feedback: in an emission or concentration run the concentrations of a year are computed
with the previous year's thermal output restricted to the feedback variables (missing ones count as
zero), and with no feedback in the first year; the forcing is then computed from the same state. -/
theorem C40_feedback {cops : CarbonOps F κ} {d : Driver F κ} {h : Handler F κ} {src' : Source F κ}
    {prev : Option (Dict F)} {y : ℤ} {f : YearForcing F}
    (e : yearForcing cops d (.handler h) prev y = .ok (f, src')) :
    ∃ fb h1 h2 luc sun r, emi2conc cops h y fb = .ok h1 ∧
      (prev = none → fb = none) ∧
      (∀ v ks, prev = some v → d.feedbackList = some ks →
        ∃ g, fb = some g ∧ g.map Prod.fst = ks ∧
          ∀ k x, (k, x) ∈ g → v.get? k = some x ∨ (v.get? k = none ∧ x = 0.0)) ∧
      rowOf d.luc (y - d.nystart) = .ok luc ∧ rowOf d.sun (y - d.nystart) = .ok sun ∧
      conc2forc h1 y luc sun = .ok (r, h2) ∧ src' = .handler h2 ∧
      f = ⟨r.nh, r.sh, r.tot, r.wAero⟩ := by
  unfold yearForcing at e
  simp only [bind_eq_ok] at e
  obtain ⟨h1, e1, luc, e2, sun, e3, r, e4, e⟩ := e
  rw [pure_ok, Except.ok.injEq, Prod.mk.injEq] at e
  refine ⟨_, h1, r.2, luc, sun, r.1, e1, ?_, ?_, e2, e3, e4, e.2.symm, e.1.symm⟩
  · rintro rfl; rfl
  · rintro v ks rfl hk
    rw [hk]
    refine ⟨_, rfl, ?_, ?_⟩
    · rw [List.map_map]
      conv_rhs => rw [← List.map_id ks]
      rfl
    · intro k x hkx
      obtain ⟨k', -, e⟩ := List.mem_map.1 hkx
      simp only [Prod.mk.injEq] at e
      obtain ⟨rfl, rfl⟩ := e
      cases v.get? k' with
      | none => exact Or.inr ⟨rfl, rfl⟩
      | some x => exact Or.inl rfl

/-! ## C41 — forcing runs -/

theorem forcing_source {cops : CarbonOps F κ} {d : Driver F κ} {rf : Forcing F}
    {prev : Option (Dict F)} {y : ℤ} {f : YearForcing F} {src' : Source F κ}
    (e : yearForcing cops d (.forcing rf) prev y = .ok (f, src')) :
    forcSet d rf y = .ok f ∧ src' = .forcing rf := by
  unfold yearForcing at e
  rw [bind_eq_ok] at e
  obtain ⟨f', hf, e⟩ := e
  rw [pure_ok, Except.ok.injEq, Prod.mk.injEq] at e
  obtain ⟨rfl, rfl⟩ := e
  exact ⟨hf, rfl⟩

/-- C41 in general: in a forcing run every year's forcing is the prescribed one plus solar, whatever
happened in earlier years. -/
theorem forcing_run {cops : CarbonOps F κ} {tops : ThermalOps F τ} {d d' : Driver F κ}
    {p : RunPams F} {t' : τ} (hnd : (tops.outputs.map Prod.fst ++ forcOutputList).Nodup)
    (h : run cops tops d p = .ok (d', t')) {rf : Forcing F} (hs : d.source = .forcing rf) :
    ∃ (st : ℤ → τ) (f : ℤ → YearForcing F) (vals : ℤ → Dict F),
      (∀ y, d.nystart ≤ y → y ≤ d.nyend → forcSet d rf y = .ok (f y) ∧
        ∃ vn vs, rowOf d.volcN (y - d.nystart) = .ok vn ∧ rowOf d.volcS (y - d.nystart) = .ok vs ∧
          tops.budget (tops.setFeedback (st y) (f y).wAero) (f y).fn (f y).fs vn vs =
            .ok (vals y, st (y + 1))) ∧
      YearSeries d' "Total_forcing" (fun y v => v = (f y).forc) := by
  obtain ⟨st, src, f, vals, -, h2, -, -, -, -, h7, -, h9, -⟩ := C40_run hnd h
  have hsrc : ∀ n : ℕ, d.nystart + n ≤ d.nyend + 1 → src (d.nystart + n) = .forcing rf := by
    intro n
    induction n with
    | zero =>
      intro _
      rw [hs] at h2
      simpa [resetSource] using h2.symm
    | succ n ih =>
      intro hn
      have hp := ih (by omega)
      have := (h7 (d.nystart + n) (by omega) (by omega)).1
      rw [hp] at this
      have := (forcing_source this).2
      rw [show d.nystart + ((n + 1 : ℕ) : ℤ) = d.nystart + n + 1 by push_cast; ring]
      exact this
  refine ⟨st, f, vals, ?_, h9⟩
  intro y h1 h2
  obtain ⟨a1, a2⟩ := h7 y h1 h2
  refine ⟨?_, a2⟩
  have := hsrc (y - d.nystart).toNat (by omega)
  rw [show d.nystart + ((y - d.nystart).toNat : ℤ) = y by omega] at this
  rw [this] at a1
  exact (forcing_source a1).1

/-- C41 for an array: in year `y` the thermal model gets the array's value of that year plus solar
forcing in both hemispheres (aerosol weight zero), and the reported total is that value. -/
theorem C41_array {cops : CarbonOps F κ} {tops : ThermalOps F τ} {d d' : Driver F κ}
    {p : RunPams F} {t' : τ} (hnd : (tops.outputs.map Prod.fst ++ forcOutputList).Nodup)
    (h : run cops tops d p = .ok (d', t')) {xs : List F} (hs : d.source = .forcing (.array xs)) :
    ∃ (st : ℤ → τ) (vals : ℤ → Dict F) (x s : ℤ → F),
      (∀ y, d.nystart ≤ y → y ≤ d.nyend →
        xs[(y - d.nystart).toNat]? = some (x y) ∧ d.sun[(y - d.nystart).toNat]? = some (s y) ∧
        ∃ vn vs, tops.budget (tops.setFeedback (st y) 0.0) (x y + s y) (x y + s y) vn vs =
          .ok (vals y, st (y + 1))) ∧
      YearSeries d' "Total_forcing" (fun y v => v = x y + s y) := by
  obtain ⟨st, f, vals, h1, h2⟩ := forcing_run hnd h hs
  have key : ∀ y, ∃ x s, d.nystart ≤ y → y ≤ d.nyend →
      xs[(y - d.nystart).toNat]? = some x ∧ d.sun[(y - d.nystart).toNat]? = some s ∧
      f y = ⟨x + s, x + s, x + s, 0.0⟩ := by
    intro y
    by_cases hy : d.nystart ≤ y ∧ y ≤ d.nyend
    · have e := (h1 y hy.1 hy.2).1
      unfold forcSet prescribed at e
      simp only [bind_eq_ok] at e
      obtain ⟨q, ⟨x, hx, hq⟩, s, hsun, e⟩ := e
      rw [pure_ok, Except.ok.injEq] at hq e
      subst hq
      exact ⟨x, s, fun _ _ => ⟨(rowOf_eq_ok.1 hx).2, (rowOf_eq_ok.1 hsun).2, e.symm⟩⟩
    · exact ⟨0.0, 0.0, fun a b => absurd ⟨a, b⟩ hy⟩
  choose x s hxs using key
  refine ⟨st, vals, x, s, ?_, ?_⟩
  · intro y a b
    obtain ⟨e1, e2, e3⟩ := hxs y a b
    obtain ⟨-, vn, vs, -, -, e4⟩ := h1 y a b
    rw [e3] at e4
    exact ⟨e1, e2, vn, vs, e4⟩
  · obtain ⟨a, e1, e2, e3⟩ := h2
    obtain ⟨-, -, -, -, -, -, -, -, n1, n2, -⟩ := C40_run hnd h
    refine ⟨a, e1, e2, ?_⟩
    intro y c1 c2
    obtain ⟨v, hv, e⟩ := e3 y c1 c2
    rw [n1] at c1
    rw [n2] at c2
    exact ⟨v, hv, by rw [e, (hxs y c1 c2).2.2]⟩

/-- C41 for a frame: the hemispheric and total forcings of year `y` are the frame's values of that year
plus solar forcing; the aerosol weight is the frame's, or zero if it has none. -/
theorem C41_frame {cops : CarbonOps F κ} {tops : ThermalOps F τ} {d d' : Driver F κ}
    {p : RunPams F} {t' : τ} (hnd : (tops.outputs.map Prod.fst ++ forcOutputList).Nodup)
    (h : run cops tops d p = .ok (d', t')) {t : Frame F} (hs : d.source = .forcing (.frame t)) :
    ∃ (st : ℤ → τ) (vals : ℤ → Dict F) (s : ℤ → F),
      (∀ y, d.nystart ≤ y → y ≤ d.nyend → y ∈ t.idx ∧ d.sun[(y - d.nystart).toNat]? = some (s y) ∧
        ∃ vn vs, tops.budget
          (tops.setFeedback (st y) (if "w_aero" ∈ t.cols then t.cell "w_aero" y else 0.0))
          (t.cell "FORC_NH" y + s y) (t.cell "FORC_SH" y + s y) vn vs = .ok (vals y, st (y + 1))) ∧
      YearSeries d' "Total_forcing" (fun y v => v = t.cell "total" y + s y) := by
  obtain ⟨st, f, vals, h1, h2⟩ := forcing_run hnd h hs
  have key : ∀ y, ∃ s, d.nystart ≤ y → y ≤ d.nyend → y ∈ t.idx ∧
      d.sun[(y - d.nystart).toNat]? = some s ∧
      f y = ⟨t.cell "FORC_NH" y + s, t.cell "FORC_SH" y + s, t.cell "total" y + s,
        if "w_aero" ∈ t.cols then t.cell "w_aero" y else 0.0⟩ := by
    intro y
    by_cases hy : d.nystart ≤ y ∧ y ≤ d.nyend
    · have e := (h1 y hy.1 hy.2).1
      unfold forcSet prescribed at e
      simp only [bind_eq_ok] at e
      obtain ⟨q, ⟨a, ha, b, hb, c, hc, w, hw, hq⟩, s, hsun, e⟩ := e
      rw [pure_ok, Except.ok.injEq] at hq e
      subst hq
      rw [frame_at'_eq_ok] at ha hb hc
      refine ⟨s, fun _ _ => ⟨ha.2.1, (rowOf_eq_ok.1 hsun).2, ?_⟩⟩
      rw [← e, ha.2.2, hb.2.2, hc.2.2]
      by_cases hcol : "w_aero" ∈ t.cols
      · rw [frameWeight, if_pos hcol] at hw
        rw [frame_at'_eq_ok] at hw
        rw [if_pos hcol, hw.2.2]
      · rw [frameWeight, if_neg hcol] at hw
        rw [if_neg hcol]
        rw [Except.ok.injEq] at hw
        rw [hw]
    · exact ⟨0.0, fun a b => absurd ⟨a, b⟩ hy⟩
  choose s hxs using key
  refine ⟨st, vals, s, ?_, ?_⟩
  · intro y a b
    obtain ⟨e1, e2, e3⟩ := hxs y a b
    obtain ⟨-, vn, vs, -, -, e4⟩ := h1 y a b
    rw [e3] at e4
    exact ⟨e1, e2, vn, vs, e4⟩
  · obtain ⟨a, e1, e2, e3⟩ := h2
    obtain ⟨-, -, -, -, -, -, -, -, n1, n2, -⟩ := C40_run hnd h
    refine ⟨a, e1, e2, ?_⟩
    intro y c1 c2
    obtain ⟨v, hv, e⟩ := e3 y c1 c2
    rw [n1] at c1
    rw [n2] at c2
    exact ⟨v, hv, by rw [e, (hxs y c1 c2).2.2]⟩

/-! ## C57 — the standard output files -/

/-- The writer succeeds exactly when every series it writes is there. -/
theorem writeData_ok_iff {d : Driver F κ} :
    (∃ cols, writeData d = .ok cols) ↔ ∀ n ∈ writerSeries d.source.isForcing, ∃ a, d.results.get? n = some a := by
  unfold writeData
  constructor
  · rintro ⟨cols, h⟩ n hn
    have e := mapM_ok.1 h
    have : (do let a ← d.results.getE n; return (n, a) : Except PyErr (String × List F)) ∈
        cols.map Except.ok := by
      rw [← e]; exact List.mem_map_of_mem hn
    obtain ⟨c, -, hc⟩ := List.mem_map.1 this
    have hc' := hc.symm
    rw [bind_eq_ok] at hc'
    obtain ⟨a, ha, -⟩ := hc'
    refine ⟨a, ?_⟩
    unfold Dict.getE at ha
    split at ha
    · rename_i w hw; rw [hw]; simpa using ha
    · cases ha
  · intro hall
    rcases mapM_ok_or (fun n => (do let a ← d.results.getE n; return (n, a) :
        Except PyErr (String × List F))) (writerSeries d.source.isForcing) with h | ⟨e, he⟩
    · exact h
    · obtain ⟨n, hn, hne⟩ := mapM_error he
      obtain ⟨a, ha⟩ := hall n hn
      simp only [Dict.getE, ha, bind_ok, pure_ok] at hne
      cases hne

/-- The results of a run have every output of the thermal model and the four forcing series. -/
theorem results_has {cops : CarbonOps F κ} {tops : ThermalOps F τ} {d d' : Driver F κ}
    {p : RunPams F} {t' : τ} (hnd : (tops.outputs.map Prod.fst ++ forcOutputList).Nodup)
    (h : run cops tops d p = .ok (d', t')) {o : String}
    (ho : o ∈ tops.outputs.map Prod.fst ++ forcOutputList) : ∃ a, d'.results.get? o = some a := by
  obtain ⟨_, _, _, _, -, -, -, -, -, -, -, h1, ⟨a2, h2, -⟩, ⟨a3, h3, -⟩, ⟨a4, h4, -⟩, ⟨a5, h5, -⟩⟩ :=
    C40_run hnd h
  rcases List.mem_append.1 ho with hm | hm
  · obtain ⟨q, hq, rfl⟩ := List.mem_map.1 hm
    obtain ⟨a, e, -⟩ := h1 q hq
    exact ⟨a, e⟩
  · simp only [forcOutputList, List.mem_cons, List.not_mem_nil, or_false] at hm
    rcases hm with rfl | rfl | rfl | rfl
    · exact ⟨_, h2⟩
    · exact ⟨_, h3⟩
    · exact ⟨_, h4⟩
    · exact ⟨_, h5⟩

/-- C57, the part that holds: after any successful run of any instance with a thermal model that has the
outputs of the upwelling-diffusion model, the standard writer finds every series. What is missing: the
two-layer model, for which it fails (`C57_two_layer_false`). -/
theorem C57_udm_partial {cops : CarbonOps F κ} {tops : ThermalOps F τ} {d d' : Driver F κ}
    {p : RunPams F} {t' : τ} (ho : tops.outputs = udmOutputs)
    (h : run cops tops d p = .ok (d', t')) : ∃ cols, writeData d' = .ok cols := by
  have hnd : (tops.outputs.map Prod.fst ++ forcOutputList).Nodup := by
    rw [ho]; decide +kernel
  rw [writeData_ok_iff]
  intro n hn
  refine results_has hnd h ?_
  rw [ho]
  have : ∀ b, ∀ n ∈ writerSeries b, n ∈ udmOutputs.map Prod.fst ++ forcOutputList := by
    decide +kernel
  exact this _ n hn

/-- `run` adds no other series. -/
theorem results_only {cops : CarbonOps F κ} {tops : ThermalOps F τ} {d d' : Driver F κ}
    {p : RunPams F} {t' : τ} (hnd : (tops.outputs.map Prod.fst ++ forcOutputList).Nodup)
    (h : run cops tops d p = .ok (d', t')) {o : String}
    (ho : o ∉ tops.outputs.map Prod.fst ++ forcOutputList) (hr : d.results.get? o = none) :
    d'.results.get? o = none := by
  obtain ⟨tr, ht⟩ := run_trace h
  have hi := (startRun_spec ht.start).1
  have h0 : len (tr d.nystart).results o = none := by
    unfold initialiseOutputArrays at hi
    split at hi
    · cases hi
    · rw [Except.ok.injEq] at hi
      rw [← hi]
      have key : ∀ (os : List String) (r : Dict (List F)) (v : List F), o ∉ os → r.get? o = none →
          Dict.get? (os.foldl (fun r o => Dict.set r o v) r) o = none := by
        intro os
        induction os with
        | nil => intro r v _ h; exact h
        | cons x os ih =>
          intro r v hm h
          rw [List.foldl_cons]
          apply ih _ _ (fun h => hm (List.mem_cons_of_mem _ h))
          rw [Dict.get?_set, if_neg (fun e => hm (by rw [e]; exact List.mem_cons_self))]
          exact h
      unfold len
      rw [key _ _ _ ho hr]
      rfl
  have : len (tr (d.nyend + 1)).results o = none := by
    have hle : d.nystart ≤ d.nyend + 1 := by have := (initialise_spec hi).1; omega
    refine ht.keep (fun s => len s.results o = none) d.nystart (d.nyend + 1) hle ?_ h0
    intro y h1 h2 e
    obtain ⟨f, vn, vs, values, -, -, -, -, -, ha⟩ := yearStep_spec (ht.step y h1 (by omega))
    rw [(addYearData_spec hnd ha).1, e]
  have hres : d'.results = (tr (d.nyend + 1)).results := by rw [ht.last.1]
  rw [hres]
  unfold len at this
  cases hg : (tr (d.nyend + 1)).results.get? o with
  | none => rfl
  | some a => rw [hg] at this; cases this

end

/-! ## Witnesses -/

/-- A carbon cycle for runs that have none. -/
def noCarbon : CarbonOps ℝ Unit := ⟨fun _ _ => .ok (), fun _ _ _ _ => .ok (0, ()), fun _ _ => .ok ()⟩

/-- A forcing-driven instance of two years without volcanoes. -/
noncomputable def exRfDriver : Driver ℝ Unit :=
  { nystart := 2000, nyend := 2001, source := .forcing (.array [1, 2]), feedbackList := none,
    volcN := [[0], [0]], volcS := [[0], [0]], sun := [0.5, 0.25], luc := [0, 0], results := [] }

/-- The two-layer model never fails once created. -/
theorem twoLayer_total {F : Type} [Add F] [Sub F] [Mul F] [Div F] [Neg F] [OfScientific F] [LT F]
    [DecidableLT F] [MathFn F] : Total (twoLayerOps (F := F)) := by
  constructor
  intro t fn fs vn vs h
  refine ⟨outDict (TwoLayer.energyBudget t.1 t.2 fn fs vn vs).2,
    (t.1, (TwoLayer.energyBudget t.1 t.2 fn fs vn vs).1), ?_, ?_⟩
  · show (if vn.length = vs.length then _ else _) = _
    rw [if_pos h]
  · intro p hp
    simp only [twoLayerOps, twoLayerOutputs, List.mem_cons, List.not_mem_nil, or_false] at hp
    rcases hp with rfl | rfl | rfl | rfl | rfl | rfl | rfl | rfl <;>
      exact ⟨_, by simp [outDict, Dict.get?]; rfl⟩

/-- The two-layer model can be created from any parameter set. -/
theorem twoLayer_create {F : Type} [Add F] [Sub F] [Mul F] [Div F] [Neg F] [OfScientific F] [LT F]
    [DecidableLT F] [MathFn F] (p : Option (Dict (PyVal F))) (hp : ∀ q, p = some q → Dict.WF q) :
    ∃ t, (twoLayerOps (F := F)).create p = .ok t := by
  have hreq : Dict.WF (twoLayerRequired (F := F)) := by
    unfold Dict.WF Dict.keys twoLayerRequired
    simp
  have hwf : Dict.WF (p.getD []) := by
    cases p with
    | none => simp [Dict.WF, Dict.keys]
    | some q => exact hp q rfl
  have key : ∀ k ∈ ["lambda", "mixed", "deep", "k", "ocean_efficacy", "foan", "foas",
      "delta_lambda_aero"], ∃ x, Handler.pamF
        (cutAndCheckPamset (twoLayerRequired (F := F)) (p.getD []) []) k = .ok x := by
    intro k hk
    obtain ⟨v, h1, h2⟩ := C01_complete (twoLayerRequired (F := F)) (p.getD []) [] hreq hwf (by
      intro k v h
      have hall : ∀ q ∈ twoLayerRequired (F := F), q.2.isNum = true := by
        simp [twoLayerRequired, PyVal.isNum]
      exact hall _ (Dict.mem_of_get? h)) k (by simpa [twoLayerRequired, Dict.keys] using hk)
    cases v with
    | int i => exact ⟨_, by simp only [Handler.pamF, Dict.getE, h1, bind_ok, PyVal.toF]; rfl⟩
    | flt i => exact ⟨_, by simp only [Handler.pamF, Dict.getE, h1, bind_ok, PyVal.toF]; rfl⟩
    | bool i => exact ⟨_, by simp only [Handler.pamF, Dict.getE, h1, bind_ok, PyVal.toF]; rfl⟩
    | _ => simp [PyVal.isNum] at h2
  simp only [List.forall_mem_cons, List.not_mem_nil, false_imp_iff, implies_true, and_true] at key
  obtain ⟨⟨a, ha⟩, ⟨b, hb⟩, ⟨c, hc⟩, ⟨d, hd⟩, ⟨e, he⟩, ⟨f, hf⟩, ⟨g, hg⟩, ⟨i, hi⟩⟩ := key
  refine ⟨(⟨a, b, c, d, e, f, g, i⟩, TwoLayer.init ⟨a, b, c, d, e, f, g, i⟩), ?_⟩
  simp only [twoLayerOps, twoLayerCreate, twoLayerPams, ha, hb, hc, hd, he, hf, hg, hi, bind_ok,
    pure_ok]

/-- C41: a run driven by a forcing array with the two-layer model never fails, whatever the parameter
set, when the forcing, solar and volcanic series cover the run. -/
theorem C41_succeeds {F κ : Type} [Add F] [Sub F] [Mul F] [Div F] [Neg F] [OfScientific F] [LT F]
    [DecidableLT F] [MathFn F] (cops : CarbonOps F κ) {d : Driver F κ} {p : RunPams F}
    (hp : ∀ q, p.udm = some q → Dict.WF q) {xs : List F}
    (hs : d.source = .forcing (.array xs)) (hle : d.nystart ≤ d.nyend + 1)
    (hxs : d.nyend - d.nystart < xs.length) (hsun : d.nyend - d.nystart < d.sun.length)
    (hvn : d.nyend - d.nystart < d.volcN.length) (hvs : d.nyend - d.nystart < d.volcS.length)
    (heq : ∀ (i : ℕ) (vn vs : List F), d.volcN[i]? = some vn → d.volcS[i]? = some vs → vn.length = vs.length) :
    ∃ d' t', run cops twoLayerOps d p = .ok (d', t') := by
  obtain ⟨t0, hc⟩ := twoLayer_create p.udm hp
  exact run_array_ok twoLayer_total hc hs hle hxs hsun hvn hvs heq

/-- The hypotheses of C40, C41 and C57 are met by a two-year forcing run with the two-layer model. -/
theorem exRf_runs : ∃ d' t', run noCarbon (twoLayerOps (F := ℝ)) exRfDriver ⟨none, none, none⟩ =
    .ok (d', t') := by
  refine C41_succeeds noCarbon (xs := [1, 2]) (by simp) rfl (by simp [exRfDriver])
    (by simp [exRfDriver]) (by simp [exRfDriver]) (by simp [exRfDriver]) (by simp [exRfDriver]) ?_
  intro i vn vs h1 h2
  have : exRfDriver.volcN = exRfDriver.volcS := rfl
  rw [this, h2] at h1
  simp only [Option.some.injEq] at h1
  rw [h1]

theorem twoLayer_nodup : ((twoLayerOps (F := ℝ)).outputs.map Prod.fst ++ forcOutputList).Nodup := by
  show (twoLayerOutputs.map Prod.fst ++ forcOutputList).Nodup
  decide +kernel

/-- The reported total forcing of the two-year run is `1 + 0.5` and `2 + 0.25`. -/
example : ∃ d' t', run noCarbon (twoLayerOps (F := ℝ)) exRfDriver ⟨none, none, none⟩ = .ok (d', t') ∧
    ∃ a, d'.results.get? "Total_forcing" = some a ∧ a[0]? = some (1.5 : ℝ) ∧ a[1]? = some (2.25 : ℝ) := by
  obtain ⟨d', t', h⟩ := exRf_runs
  refine ⟨d', t', h, ?_⟩
  obtain ⟨st, vals, x, s, h1, a, ha, hl, he⟩ := C41_array twoLayer_nodup h (xs := [1, 2]) rfl
  obtain ⟨_, _, _, _, -, -, -, -, n1, n2, -⟩ := C40_run twoLayer_nodup h
  refine ⟨a, ha, ?_, ?_⟩
  · obtain ⟨v, hv, e⟩ := he 2000 (by rw [n1]; simp [exRfDriver]) (by rw [n2]; simp [exRfDriver])
    obtain ⟨e1, e2, -⟩ := h1 2000 (by simp [exRfDriver]) (by simp [exRfDriver])
    simp [exRfDriver] at e1 e2
    rw [n1] at hv
    simp [exRfDriver] at hv
    rw [hv, e, ← e1, ← e2]
    norm_num
  · obtain ⟨v, hv, e⟩ := he 2001 (by rw [n1]; simp [exRfDriver]) (by rw [n2]; simp [exRfDriver])
    obtain ⟨e1, e2, -⟩ := h1 2001 (by simp [exRfDriver]) (by simp [exRfDriver])
    simp [exRfDriver] at e1 e2
    rw [n1] at hv
    simp [exRfDriver] at hv
    rw [hv, e, ← e1, ← e2]
    norm_num

/-- C57, the failure: after any successful run of a new instance with the two-layer model the standard
writer raises `KeyError` (it asks for hemispheric series the model does not have). -/
theorem C57_two_layer_false {F κ : Type} [Add F] [Sub F] [Mul F] [Div F] [Neg F] [OfScientific F]
    [LT F] [DecidableLT F] [MathFn F] {cops : CarbonOps F κ} {d d' : Driver F κ}
    {p : RunPams F} {t' : TwoLayer.Pams F × TwoLayer.State F} (hr : d.results = [])
    (h : run cops twoLayerOps d p = .ok (d', t')) : writeData d' = .error .keyError := by
  have hnd : ((twoLayerOps (F := F)).outputs.map Prod.fst ++ forcOutputList).Nodup := by
    show (twoLayerOutputs.map Prod.fst ++ forcOutputList).Nodup
    decide +kernel
  have hno : d'.results.get? "RIB_N" = none := by
    refine results_only hnd h ?_ (by rw [hr]; rfl)
    show "RIB_N" ∉ twoLayerOutputs.map Prod.fst ++ forcOutputList
    decide +kernel
  rcases mapM_ok_or (fun n => (do let a ← d'.results.getE n; return (n, a) :
      Except PyErr (String × List F))) (writerSeries d'.source.isForcing) with hk | ⟨e, he⟩
  · obtain ⟨a, ha⟩ := writeData_ok_iff.1 hk "RIB_N" (by simp [writerSeries])
    rw [hno] at ha
    cases ha
  · unfold writeData
    rw [he]
    obtain ⟨n, -, hne⟩ := mapM_error he
    unfold Dict.getE at hne
    split at hne
    · simp only [bind_ok, pure_ok] at hne
      cases hne
    · simp only [bind_error, Except.error.injEq] at hne
      rw [hne]

/-- A run that meets the hypotheses of `C57_two_layer_false`. -/
example : ∃ d' t', run noCarbon (twoLayerOps (F := ℝ)) exRfDriver ⟨none, none, none⟩ = .ok (d', t') ∧
    writeData d' = .error .keyError := by
  obtain ⟨d', t', h⟩ := exRf_runs
  exact ⟨d', t', h, C57_two_layer_false rfl h⟩

end Verif.Props
