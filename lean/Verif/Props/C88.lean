import Mathlib.Topology.Algebra.Order.Field
import Mathlib.Topology.Order.MonotoneConvergence
import Verif.Props.C36
import Verif.Props.C37_C38_C39
import Verif.Props.C76
import Verif.Props.C78

/-!
# C88: the diffusion model settles at the configured climate sensitivity

The same year repeated for ever. `o n` is the output of year `n`.
-/

namespace Verif.Props.C88
open Verif.Py Verif.Model.UDM Verif.Spec.Tridiag Verif.Spec.Diffusion Verif.Lemmas Verif.Lemmas.UDM
  Verif.Lemmas.Tridiag Verif.Props.C35 Verif.Props.C33_C34 Verif.Props.C36 Verif.Props.C76 Verif.Props.C78
open Finset (range)
open Filter Topology

variable {solve : Solver ℝ}

/-! ## A quiet year at the start changes nothing -/

theorem subSteps_put {m : Model ℝ} (ht : m.p.threstemp = 0) {fn fs : ℝ} {vn vs : List ℝ}
    {r : Model ℝ × Model.UDM.Acc ℝ} (h : subSteps solve m fn fs vn vs = .ok r) :
    r.1 = put m r.1.tn r.1.ts m.prevFn m.prevFs := by
  unfold subSteps at h
  refine foldlM_range_inv (fun _ (s : Model ℝ × Model.UDM.Acc ℝ) =>
    s.1 = put m s.1.tn s.1.ts m.prevFn m.prevFs) rfl ?_ h
  intro k _ b b' hb hk
  unfold subStep at hk
  simp only [bind_eq_ok, pure_ok, Except.ok.injEq] at hk
  obtain ⟨vN, _, vS, _, tn, _, ts, _, h5⟩ := hk
  have hb' : b.1.p.threstemp = 0 := by rw [hb]; exact ht
  rw [← h5, refresh_flat hb']
  simp only
  rw [hb]
  rfl

/-- The quiet year with the volcanic series' lengths and the aerosol weight of `y`. -/
noncomputable def quietLike (y : Year ℝ) : Year ℝ := ⟨y.w_aero, 0, 0, y.vn.map fun _ => 0, y.vs.map fun _ => 0⟩

theorem quietLike_noForcing (y : Year ℝ) : NoForcing (quietLike y) := by
  constructor <;> simp [quietLike]

theorem quiet_first (hs : Exact solve) {p : Pams ℝ} (ht : p.threstemp = 0) {z : Year ℝ}
    (hz : NoForcing z) {o : Out ℝ} {m' : Model ℝ}
    (h : energyBudget solve (setFeedback (init p) z.w_aero) z.fn z.fs z.vn z.vs = .ok (o, m')) :
    m' = setFeedback (init p) z.w_aero := by
  have still : Still (init p) := ⟨fun _ => sci0, fun _ => sci0, sci0, sci0⟩
  have st := setFeedback_still still z.w_aero
  rw [hz.north, hz.south] at h
  obtain ⟨-, st'⟩ := energyBudget_rest hs hz.volcNorth hz.volcSouth st h
  obtain ⟨r, h7, ht7, e1, e2, -⟩ := energyBudget_ok h
  have e3 := subSteps_put (by rw [(setFeedback_fields (init p) z.w_aero).1]; exact ht) e1
  generalize setFeedback (init p) z.w_aero = m at *
  have t1 : m'.tn = m.tn := funext fun i => by rw [st'.tn, st.tn]
  have t2 : m'.ts = m.ts := funext fun i => by rw [st'.ts, st.ts]
  have e4 : m' = put m m'.tn m'.ts 0 0 := by
    rw [e2]
    simp only
    conv_lhs => rw [e3]
    rfl
  rw [e4, t1, t2]
  conv_rhs => rw [show m = put m m.tn m.ts m.prevFn m.prevFs from rfl, st.prevFn, st.prevFs]

theorem quiet_run (hs : Exact solve) {p : Pams ℝ} (ht : p.threstemp = 0) {y : Year ℝ} {n : ℕ}
    {outs : List (Out ℝ)} {m : Model ℝ} {oz : Out ℝ} {mz : Model ℝ}
    (hz : energyBudget solve (setFeedback (init p) y.w_aero) 0 0 (quietLike y).vn (quietLike y).vs
      = .ok (oz, mz))
    (h : run solve (init p) (List.replicate n y) = .ok (outs, m)) :
    ∃ m', run solve (init p) (quietLike y :: List.replicate n y) = .ok (oz :: outs, m') := by
  have e := quiet_first hs ht (quietLike_noForcing y) hz
  cases n with
  | zero =>
    obtain ⟨rfl, -⟩ := run_nil.1 h
    exact ⟨mz, run_cons.2 ⟨oz, mz, [], hz, run_nil.2 ⟨rfl, rfl⟩, rfl⟩⟩
  | succ n =>
    rw [List.replicate_succ] at h
    obtain ⟨o, m1, os, h1, h2, rfl⟩ := run_cons.1 h
    refine ⟨m, run_cons.2 ⟨oz, mz, o :: os, hz, ?_, rfl⟩⟩
    rw [List.replicate_succ]
    refine run_cons.2 ⟨o, m1, os, ?_, h2, rfl⟩
    rw [e]
    show energyBudget solve (setFeedback (setFeedback (init p) y.w_aero) y.w_aero) _ _ _ _ = _
    rw [C37_C38_C39.setFeedback_twice]
    exact h1

/-! ## The outputs of a repeated year -/

/-- `o n` is what the model reports in year `n` (from zero) when every year is `y`. -/
def Repeats (solve : Solver ℝ) (m0 : Model ℝ) (y : Year ℝ) (o : ℕ → Out ℝ) : Prop :=
  ∀ n, ∃ m, run solve m0 (List.replicate n y) = .ok ((List.range n).map o, m)

theorem replicate_snoc {α : Type} (n : ℕ) (y : α) :
    List.replicate (n + 1) y = List.replicate n y ++ [y] := List.replicate_succ'

theorem repeats_exists {m0 : Model ℝ} {y : Year ℝ}
    (h : ∀ n, ∃ outs m, run solve m0 (List.replicate n y) = .ok (outs, m)) :
    ∃ o, Repeats solve m0 y o := by
  choose outs m h using h
  have key : ∀ n, ∃ o, outs (n + 1) = outs n ++ [o] := by
    intro n
    have e := h (n + 1)
    rw [replicate_snoc] at e
    obtain ⟨os, m1, o, h1, -, h3⟩ := run_snoc.1 e
    rw [h n] at h1
    injection h1 with h1
    injection h1 with h1 _
    exact ⟨o, by rw [h3, h1]⟩
  choose o ho using key
  have h0 : outs 0 = [] := by
    have := h 0
    exact (run_nil.1 this).1
  have all : ∀ n, outs n = (List.range n).map o := by
    intro n
    induction n with
    | zero => simpa using h0
    | succ n ih => rw [ho, ih, List.range_succ, List.map_append]; rfl
  exact ⟨o, fun n => ⟨m n, by rw [← all]; exact h n⟩⟩

theorem Repeats.snoc {m0 : Model ℝ} {y : Year ℝ} {o : ℕ → Out ℝ} (h : Repeats solve m0 y o) (n : ℕ) :
    ∃ m, run solve m0 (List.replicate n y ++ [y]) = .ok ((List.range n).map o ++ [o n], m) := by
  obtain ⟨m, hm⟩ := h (n + 1)
  rw [replicate_snoc, List.range_succ, List.map_append] at hm
  exact ⟨m, hm⟩

theorem Repeats.unique {m0 : Model ℝ} {y : Year ℝ} {o o' : ℕ → Out ℝ} (h : Repeats solve m0 y o)
    (h' : Repeats solve m0 y o') : o = o' := by
  funext n
  obtain ⟨m, e⟩ := h.snoc n
  obtain ⟨m', e'⟩ := h'.snoc n
  rw [e] at e'
  injection e' with e'
  injection e' with e' _
  exact List.head_eq_of_cons_eq (List.append_inj' e' rfl).2

/-- The temperatures a year reports, and the heat content. -/
structure Below (o o' : Out ℝ) : Prop where
  tn : ∀ i, o.tn i ≤ o'.tn i
  ts : ∀ i, o.ts i ≤ o'.ts i
  airNorth : o.dtempnh_air ≤ o'.dtempnh_air
  airSouth : o.dtempsh_air ≤ o'.dtempsh_air
  seaNorth : o.dtempnh_sea ≤ o'.dtempnh_sea
  seaSouth : o.dtempsh_sea ≤ o'.dtempsh_sea
  heat : o.OHCTOT ≤ o'.OHCTOT

theorem forall₂_replicate {α β : Type} {R : α → β → Prop} {a : α} {b : β} (h : R a b) (n : ℕ) :
    List.Forall₂ R (List.replicate n a) (List.replicate n b) := by
  induction n with
  | zero => exact .nil
  | succ n ih => rw [List.replicate_succ, List.replicate_succ]; exact .cons h ih

theorem zipWith_diff (l : List ℝ) :
    List.zipWith (fun x y => (1 : ℝ) * x + (-1) * y) l l = l.map fun _ => 0 := by
  induction l with
  | nil => rfl
  | cons x l ih => simp [ih]

theorem zipWith_self (l : List ℝ) :
    List.zipWith (fun x y => (1 : ℝ) * x + (-1) * y) l (l.map fun _ => 0) = l := by
  induction l with
  | nil => rfl
  | cons x l ih => simpa using ih

/-- **C88.** A year of non-negative forcing repeated: every temperature (air, sea surface, every layer,
both hemispheres) and the heat content rise from each year to the next. -/
theorem C88_rises (hs : Exact solve) {p : Pams ℝ} (hp : Physical p) (ht : p.threstemp = 0)
    (ho : Ordered p p.W) (hg : Gentle p p.W) (h7 : Deep700 p) {m0 : Model ℝ} (hc : create p = .ok m0)
    {y : Year ℝ} (hy : Readable y) (hw : Warming y) (hf : 0 < feedback p y.w_aero) {o : ℕ → Out ℝ}
    (h : Repeats solve m0 y o) (n : ℕ) : Below (o n) (o (n + 1)) := by
  obtain ⟨m1, h1⟩ := h (n + 2)
  obtain ⟨m2, h2⟩ := h (n + 1)
  have hc' := hc
  rw [create_ok hc] at h1 h2
  obtain ⟨oz1, mz1, hz1, -⟩ := C35_run_succeeds (solve := solve) hs hp ht ho h7 hc [quietLike y]
    (fun z hz => by
      rw [List.mem_singleton.1 hz]
      exact ⟨by simpa [quietLike] using hy.north, by simpa [quietLike] using hy.south⟩)
    (fun z hz => by rw [List.mem_singleton.1 hz]; exact hf)
  rw [create_ok hc] at hz1 hc'
  obtain ⟨oz, mz, -, hz, -⟩ := run_cons.1 hz1
  obtain ⟨m3, h3⟩ := quiet_run hs ht hz h2
  have hcomp : List.Forall₂ Compatible (List.replicate (n + 2) y) (quietLike y :: List.replicate (n + 1) y) := by
    rw [List.replicate_succ]
    exact .cons ⟨rfl, by simp [quietLike], by simp [quietLike]⟩ (forall₂_replicate ⟨rfl, rfl, rfl⟩ _)
  obtain ⟨k, hk⟩ := C36_linear hs ht hc' 1 (-1) hcomp h1 h3
  have warm : ∀ z ∈ List.zipWith (combine 1 (-1)) (List.replicate (n + 2) y)
      (quietLike y :: List.replicate (n + 1) y), Warming z ∧ z.w_aero = y.w_aero := by
    rw [List.replicate_succ, List.zipWith_cons_cons, List.zipWith_replicate]
    intro z hz
    rcases List.mem_cons.1 hz with rfl | hz
    · simp only [combine, quietLike, zipWith_self]
      simp only [mul_zero, add_zero, one_mul]
      exact ⟨⟨hw.north, hw.south, hw.volcNorth, hw.volcSouth⟩, trivial⟩
    · rw [List.eq_of_mem_replicate hz]
      simp only [combine, zipWith_diff]
      refine ⟨⟨by simp, by simp, by simp, by simp⟩, trivial⟩
  have pos := C35_warming hs hp ht ho hg hc' _ (fun z hz => (warm z hz).1)
    (fun z hz => by rw [(warm z hz).2]; exact hf) hk
  have mem : combineOut 1 (-1) (o (n + 1)) (o n) ∈ List.zipWith (combineOut 1 (-1))
      ((List.range (n + 2)).map o) (oz :: (List.range (n + 1)).map o) := by
    rw [List.mem_iff_getElem?]
    refine ⟨n + 1, ?_⟩
    rw [List.getElem?_zipWith, List.getElem?_cons_succ, List.getElem?_map, List.getElem?_map,
      List.getElem?_range (by omega), List.getElem?_range (by omega)]
    rfl
  obtain ⟨q1, q2, q3, q4, q5, q6⟩ := pos _ mem
  simp only [combineOut] at q1 q2 q3 q4 q5 q6
  exact ⟨fun i => by linarith [(q1 i).1], fun i => by linarith [(q1 i).2], by linarith, by linarith,
    by linarith, by linarith, by linarith⟩

/-! ## Convergence -/

/-- Every temperature a year reports, and the heat content, have a limit. -/
structure Settles (o : ℕ → Out ℝ) : Prop where
  tn : ∀ i, ∃ l, Tendsto (fun n => (o n).tn i) atTop (𝓝 l)
  ts : ∀ i, ∃ l, Tendsto (fun n => (o n).ts i) atTop (𝓝 l)
  airNorth : ∃ l, Tendsto (fun n => (o n).dtempnh_air) atTop (𝓝 l)
  airSouth : ∃ l, Tendsto (fun n => (o n).dtempsh_air) atTop (𝓝 l)
  seaNorth : ∃ l, Tendsto (fun n => (o n).dtempnh_sea) atTop (𝓝 l)
  seaSouth : ∃ l, Tendsto (fun n => (o n).dtempsh_sea) atTop (𝓝 l)
  heat : ∃ l, Tendsto (fun n => (o n).OHCTOT) atTop (𝓝 l)

/-- A stable feedback keeps the temperatures below a bound, whatever the forcing. -/
theorem Stable.damped {p : Pams ℝ} (hp : Physical p) {f w : ℝ} (hf : 0 < f) (h : Stable p f w) (b : ℝ)
    (hb : 0 ≤ b) : ∃ M, 0 < M ∧ Damped p f b M w := by
  have small : ∀ g : ℝ, 0 < g → (1 - p.cpi) * capacity * (w / year) < f * p.rlamdo / (g * p.rlamdo + f + p.ebbeta) →
      ∃ M0, 0 < M0 ∧ ∀ M, M0 ≤ M → (1 - p.cpi) * capacity * (w / year)
        ≤ (f - b / M) * p.rlamdo / (g * p.rlamdo + f + p.ebbeta) := by
    intro g hg hlt
    have hr := hp.exchange
    have hD : 0 < g * p.rlamdo + f + p.ebbeta := by have := hp.between; positivity
    generalize (1 - p.cpi) * capacity * (w / year) = x at hlt ⊢
    rw [lt_div_iff₀ hD] at hlt
    have hd : 0 < f * p.rlamdo - x * (g * p.rlamdo + f + p.ebbeta) := by linarith
    refine ⟨b * p.rlamdo / (f * p.rlamdo - x * (g * p.rlamdo + f + p.ebbeta)) + 1, by positivity, ?_⟩
    intro M hM
    have hM0 : 0 < M := lt_of_lt_of_le (by positivity) hM
    rw [le_div_iff₀ hD]
    have h1 : b * p.rlamdo / (f * p.rlamdo - x * (g * p.rlamdo + f + p.ebbeta)) ≤ M := by linarith
    rw [div_le_iff₀ hd] at h1
    have h2 : b / M * p.rlamdo ≤ f * p.rlamdo - x * (g * p.rlamdo + f + p.ebbeta) := by
      rw [div_mul_eq_mul_div, div_le_iff₀ hM0]; linarith
    linarith
  obtain ⟨A, hA, a⟩ := small _ hp.north h.north
  obtain ⟨B, hB, b⟩ := small _ hp.south h.south
  exact ⟨max A B, lt_of_lt_of_le hA (le_max_left _ _), h.ordered, h.gentle, h.sinking, h.oceanNorth, h.oceanSouth,
    a _ (le_max_left _ _), b _ (le_max_right _ _)⟩

theorem list_bound (l : List ℝ) : ∃ v, 0 ≤ v ∧ ∀ x ∈ l, |x| ≤ v := by
  induction l with
  | nil => exact ⟨0, le_rfl, by simp⟩
  | cons x l ih =>
    obtain ⟨v, h0, hv⟩ := ih
    refine ⟨max |x| v, le_max_of_le_right h0, ?_⟩
    intro z hz
    rcases List.mem_cons.1 hz with rfl | hz
    · exact le_max_left _ _
    · exact (hv z hz).trans (le_max_right _ _)

/-- **C88.** Whatever year is repeated, no year fails and every temperature reported stays within a
bound. -/
theorem C88_bounded (hs : Exact solve) {p : Pams ℝ} (hp : Physical p) (ht : p.threstemp = 0)
    (h7 : Deep700 p) {m0 : Model ℝ} (hc : create p = .ok m0) {y : Year ℝ} (hy : Readable y)
    (hf : 0 < feedback p y.w_aero) (hst : Stable p (feedback p y.w_aero) p.W) :
    ∃ o, Repeats solve m0 y o ∧ ∃ M, ∀ n, Bounded M (o n) := by
  obtain ⟨vn, n0, hn⟩ := list_bound y.vn
  obtain ⟨vs, s0, hs'⟩ := list_bound y.vs
  obtain ⟨M, hM, hd⟩ := Stable.damped hp hf hst (max |y.fn| |y.fs| + max vn vs)
    (add_nonneg (le_max_of_le_left (abs_nonneg _)) (le_max_of_le_left n0))
  have all : ∀ n, ∃ outs m, run solve m0 (List.replicate n y) = .ok (outs, m) ∧
      outs.length = (List.replicate n y).length ∧ ∀ o ∈ outs, Bounded M o := by
    intro n
    refine C78_bounded hs hp h7 hc hM (b := max |y.fn| |y.fs|) (v := max vn vs)
      (le_max_of_le_left (abs_nonneg _)) (le_max_of_le_left n0) _ ?_ ?_ ?_ ?_
    · intro z hz; rw [List.eq_of_mem_replicate hz]; exact hy
    · intro z hz; rw [List.eq_of_mem_replicate hz]
      exact ⟨le_max_left _ _, le_max_right _ _, fun x hx => (hn x hx).trans (le_max_left _ _),
        fun x hx => (hs' x hx).trans (le_max_right _ _)⟩
    · intro z hz; rw [List.eq_of_mem_replicate hz]; exact hf
    · intro z hz t _; rw [List.eq_of_mem_replicate hz, upwelling_flat ht]; exact hd
  obtain ⟨o, h⟩ := repeats_exists fun n => by
    obtain ⟨outs, m, e, -⟩ := all n
    exact ⟨outs, m, e⟩
  refine ⟨o, h, M, fun n => ?_⟩
  obtain ⟨outs, m, e, -, hB⟩ := all (n + 1)
  obtain ⟨m', e'⟩ := h (n + 1)
  rw [e] at e'
  injection e' with e'
  injection e' with e' _
  exact hB _ (by rw [e']; exact List.mem_map.2 ⟨n, by simp, rfl⟩)

theorem rising_limit {f : ℕ → ℝ} (h : ∀ n, f n ≤ f (n + 1)) {M : ℝ} (hM : ∀ n, |f n| ≤ M) :
    ∃ l, Tendsto f atTop (𝓝 l) :=
  ⟨_, tendsto_atTop_ciSup (monotone_nat_of_le_succ h)
    ⟨M, by rintro _ ⟨n, rfl⟩; exact (le_abs_self _).trans (hM n)⟩⟩

/-- The heat content is a weighted sum of the layers' temperatures. -/
theorem repeats_heat (hs : Exact solve) {p : Pams ℝ} {m0 : Model ℝ} (hc : create p = .ok m0) {y : Year ℝ}
    {o : ℕ → Out ℝ} (h : Repeats solve m0 y o) (n : ℕ) :
    (o n).OHCTOT = ohcUnit * heat p (o n).tn (o n).ts := by
  obtain ⟨m, e⟩ := h.snoc n
  rw [create_ok hc] at e
  have a := run_after hs e
  have b := (after_heat hs e).1
  rw [a.tn, a.ts] at b
  simpa [before] using b

theorem warming_settles (hs : Exact solve) {p : Pams ℝ} (hp : Physical p) (ht : p.threstemp = 0)
    (h7 : Deep700 p) {m0 : Model ℝ} (hc : create p = .ok m0) {y : Year ℝ} (hy : Readable y) (hw : Warming y)
    (hf : 0 < feedback p y.w_aero) (hst : Stable p (feedback p y.w_aero) p.W) {o : ℕ → Out ℝ}
    (h : Repeats solve m0 y o) : Settles o := by
  obtain ⟨o', h', M, hB⟩ := C88_bounded hs hp ht h7 hc hy hf hst
  obtain rfl := h.unique h'
  have R := C88_rises hs hp ht hst.ordered hst.gentle h7 hc hy hw hf h
  have tn : ∀ i, ∃ l, Tendsto (fun n => (o n).tn i) atTop (𝓝 l) := fun i =>
    rising_limit (fun n => (R n).tn i) fun n => ((hB n).layers i).1
  have ts : ∀ i, ∃ l, Tendsto (fun n => (o n).ts i) atTop (𝓝 l) := fun i =>
    rising_limit (fun n => (R n).ts i) fun n => ((hB n).layers i).2
  refine ⟨tn, ts, rising_limit (fun n => (R n).airNorth) fun n => (hB n).air.2.1,
    rising_limit (fun n => (R n).airSouth) fun n => (hB n).air.2.2,
    rising_limit (fun n => (R n).seaNorth) fun n => (hB n).sea.2.1,
    rising_limit (fun n => (R n).seaSouth) fun n => (hB n).sea.2.2, ?_⟩
  choose ln hn using tn
  choose ls hs'' using ts
  refine ⟨ohcUnit * heat p ln ls, ?_⟩
  simp only [repeats_heat hs hc h]
  refine Tendsto.const_mul _ ?_
  unfold heat
  refine tendsto_finsetSum _ fun i _ => ?_
  exact ((hn i).const_mul _).add ((hs'' i).const_mul _) |>.const_mul _

/-- The part of a year's forcing with sign `s` (one or minus one). -/
noncomputable def part (s : ℝ) (y : Year ℝ) : Year ℝ :=
  ⟨y.w_aero, max 0 (s * y.fn), max 0 (s * y.fs), y.vn.map fun x => max 0 (s * x), y.vs.map fun x => max 0 (s * x)⟩

theorem part_warming (s : ℝ) (y : Year ℝ) : Warming (part s y) := by
  constructor <;> simp [part]

theorem part_readable (s : ℝ) {y : Year ℝ} (hy : Readable y) : Readable (part s y) :=
  ⟨by simpa [part] using hy.north, by simpa [part] using hy.south⟩

theorem parts (x : ℝ) : 1 * max 0 (1 * x) + -1 * max 0 (-1 * x) = x := by
  rcases le_total 0 x with h | h
  · rw [max_eq_right (by linarith), max_eq_left (by linarith)]; ring
  · rw [max_eq_left (by linarith), max_eq_right (by linarith)]; ring

theorem parts_list (l : List ℝ) : List.zipWith (fun x y => (1 : ℝ) * x + (-1) * y)
    (l.map fun x => max 0 (1 * x)) (l.map fun x => max 0 (-1 * x)) = l := by
  induction l with
  | nil => rfl
  | cons x l ih => rw [List.map_cons, List.map_cons, List.zipWith_cons_cons, ih, parts]

theorem combine_parts (y : Year ℝ) : combine 1 (-1) (part 1 y) (part (-1) y) = y := by
  unfold combine
  simp only [part, parts, parts_list]

theorem limit_diff {f g : ℕ → ℝ} (hf : ∃ l, Tendsto f atTop (𝓝 l)) (hg : ∃ l, Tendsto g atTop (𝓝 l)) :
    ∃ l, Tendsto (fun n => 1 * f n + -1 * g n) atTop (𝓝 l) := by
  obtain ⟨a, ha⟩ := hf
  obtain ⟨b, hb⟩ := hg
  exact ⟨_, (ha.const_mul 1).add (hb.const_mul (-1))⟩

/-- **C88.** Whatever year is repeated (any forcing, of either sign, any volcanic series), every
temperature and the heat content settle at a limit. -/
theorem C88_settles (hs : Exact solve) {p : Pams ℝ} (hp : Physical p) (ht : p.threstemp = 0)
    (h7 : Deep700 p) {m0 : Model ℝ} (hc : create p = .ok m0) {y : Year ℝ} (hy : Readable y)
    (hf : 0 < feedback p y.w_aero) (hst : Stable p (feedback p y.w_aero) p.W) {o : ℕ → Out ℝ}
    (h : Repeats solve m0 y o) : Settles o := by
  have one : ∀ s, ∃ q, Repeats solve m0 (part s y) q ∧ Settles q := by
    intro s
    obtain ⟨q, hq, -⟩ := C88_bounded (y := part s y) hs hp ht h7 hc (part_readable s hy) hf hst
    exact ⟨q, hq, warming_settles hs hp ht h7 hc (part_readable s hy) (part_warming s y) hf hst hq⟩
  obtain ⟨a, ha, sa⟩ := one 1
  obtain ⟨b, hb, sb⟩ := one (-1)
  have e : o = fun n => combineOut 1 (-1) (a n) (b n) := by
    refine h.unique fun n => ?_
    obtain ⟨m1, h1⟩ := ha n
    obtain ⟨m2, h2⟩ := hb n
    obtain ⟨k, hk⟩ := C36_linear hs ht hc 1 (-1)
      (forall₂_replicate ⟨rfl, by simp [part], by simp [part]⟩ n) h1 h2
    rw [List.zipWith_replicate, min_self, combine_parts] at hk
    refine ⟨k, ?_⟩
    rw [hk]
    congr 2
    rw [List.zipWith_map, List.zipWith_self]
  subst e
  exact ⟨fun i => limit_diff (sa.tn i) (sb.tn i), fun i => limit_diff (sa.ts i) (sb.ts i),
    limit_diff sa.airNorth sb.airNorth, limit_diff sa.airSouth sb.airSouth,
    limit_diff sa.seaNorth sb.seaNorth, limit_diff sa.seaSouth sb.seaSouth, limit_diff sa.heat sb.heat⟩

theorem limit_step {f : ℕ → ℝ} (h : ∃ l, Tendsto f atTop (𝓝 l)) :
    Tendsto (fun n => f (n + 1) - f n) atTop (𝓝 0) := by
  obtain ⟨l, h⟩ := h
  have := ((tendsto_add_atTop_iff_nat 1).2 h).sub h
  rwa [sub_self] at this

theorem last_before {α : Type} (o : ℕ → α) (n : ℕ) (f : α → ℝ) :
    before ((List.range (n + 1)).map o) f = f (o n) := by
  simp [before, List.range_succ]

/-- The heat flux from the air into the ocean dies out. -/
theorem uptake_dies (hs : Exact solve) {p : Pams ℝ} (hp : Physical p) (he : p.ocean_efficacy = 1)
    {m0 : Model ℝ} (hc : create p = .ok m0) {y : Year ℝ} (hf : 0 < feedback p y.w_aero) {o : ℕ → Out ℝ}
    (h : Repeats solve m0 y o) (st : Settles o) : Tendsto (fun n => uptake p (o (n + 1))) atTop (𝓝 0) := by
  have hy : year ≠ 0 := by unfold year; norm_num
  have e : ∀ n, uptake p (o (n + 1)) = (capacity * (((o (n + 1)).OHCTOT - (o n).OHCTOT) / ohcUnit)
      + year / p.ldtime * (p.foan * p.foas * p.ebbeta / determinant p (feedback p y.w_aero))
        * (((o (n + 1)).tn 0 - (o n).tn 0) + ((o (n + 1)).ts 0 - (o n).ts 0))) / year := by
    intro n
    obtain ⟨m, hm⟩ := h.snoc (n + 1)
    have H := C33_heat_budget_partial hs hp he hc hm hf
    rw [last_before, last_before] at H
    rw [H]
    field_simp
    ring
  simp only [e]
  have := ((((limit_step st.heat).div_const ohcUnit).const_mul capacity).add
    (((limit_step (st.tn 0)).add (limit_step (st.ts 0))).const_mul
      (year / p.ldtime * (p.foan * p.foas * p.ebbeta / determinant p (feedback p y.w_aero))))).div_const year
  simpa using this

/-- The forcing (W/m²) of a year, ordinary and mean volcanic, mean of the hemispheres. -/
noncomputable def yearForcing (y : Year ℝ) : ℝ := ((y.fn + average y.vn) + (y.fs + average y.vs)) / 2

theorem const_mean {p : Pams ℝ} (hp : Physical p) (f : ℝ) {l : List ℝ} (hl : (l.length : ℤ) = p.ldtime) :
    meanForcing p.ldtime.toNat f f l.length l = f + average l := by
  have h1 := hp.steps
  have e : l.length = p.ldtime.toNat := by omega
  have h0 : p.ldtime.toNat ≠ 0 := by omega
  rw [e, C34_mean_forcing _ h0 _ _ _ e, average, e]
  have : ((p.ldtime.toNat : ℕ) : ℝ) ≠ 0 := by exact_mod_cast h0
  field_simp
  ring

/-- **C88.** The configured climate sensitivity is what the model settles at: with the same inputs
every year (any forcing, one volcanic value per sub-step), ocean efficacy one and constant upwelling,
the global mean air temperature and the global mean surface temperature tend to the forcing divided by
the feedback, the flux into the ocean and the reported imbalance tend to zero. -/
theorem C88_equilibrium (hs : Exact solve) {p : Pams ℝ} (hp : Physical p) (ht : p.threstemp = 0)
    (he : p.ocean_efficacy = 1) (h7 : Deep700 p) {m0 : Model ℝ} (hc : create p = .ok m0) {y : Year ℝ}
    (hn : (y.vn.length : ℤ) = p.ldtime) (hso : (y.vs.length : ℤ) = p.ldtime)
    (hf : 0 < feedback p y.w_aero) (hst : Stable p (feedback p y.w_aero) p.W) :
    ∃ o, Repeats solve m0 y o ∧
      Tendsto (fun n => (o n).dtemp_air) atTop (𝓝 (yearForcing y / feedback p y.w_aero)) ∧
      Tendsto (fun n => (o n).dtemp) atTop (𝓝 (yearForcing y / feedback p y.w_aero)) ∧
      Tendsto (fun n => uptake p (o n)) atTop (𝓝 0) ∧
      Tendsto (fun n => (o n).RIB) atTop (𝓝 0) := by
  have h1 := hp.steps
  have hy : Readable y := ⟨by rintro e; rw [e] at hn; simp at hn; omega, by omega⟩
  obtain ⟨o, h, -⟩ := C88_bounded hs hp ht h7 hc hy hf hst
  have st := C88_settles hs hp ht h7 hc hy hf hst h
  have up := uptake_dies hs hp he hc hf h st
  have hf' := hf.ne'
  have hr := hp.exchange.ne'
  have air : ∀ n, (o (n + 1)).dtemp_air = yearForcing y / feedback p y.w_aero
      + (-(1 / (2 * feedback p y.w_aero))) * uptake p (o (n + 1)) ∧
    (o (n + 1)).dtemp = yearForcing y / feedback p y.w_aero
      + (-(1 / (2 * feedback p y.w_aero)) - 1 / (2 * p.rlamdo)) * uptake p (o (n + 1)) ∧
    (o (n + 1)).RIB = feedback p y.w_aero * (1 / (2 * feedback p y.w_aero) + 1 / (2 * p.rlamdo))
      * uptake p (o (n + 1)) := by
    intro n
    obtain ⟨m, hm⟩ := h.snoc (n + 1)
    have G := C34_global_balance hs hp hc hm hf
    obtain ⟨t1, t2, -, t4, t5⟩ := C76_temperatures hs hc hm (o (n + 1)) (by simp)
    obtain ⟨r1, r2, r3, r4⟩ := C76_imbalance hs hc hm
    have b : ∀ g : Year ℝ → ℝ, before (List.replicate (n + 1) y) g = g y := fun g => by
      simp [before, List.getLast?_replicate]
    rw [b, b, const_mean hp _ hn] at G
    have hl : y.vn.length = y.vs.length := by omega
    rw [hl, const_mean hp _ hso] at G
    rw [he, sub_self, zero_mul] at r4
    have a1 : (o (n + 1)).dtemp_air = yearForcing y / feedback p y.w_aero
      + (-(1 / (2 * feedback p y.w_aero))) * uptake p (o (n + 1)) := by
      rw [t2, G]
      unfold yearForcing
      field_simp
      ring
    have a2 : (o (n + 1)).dtemp = (o (n + 1)).dtemp_air - 1 / (2 * p.rlamdo) * uptake p (o (n + 1)) := by
      rw [t1, t2, t4, t5]
      unfold uptake
      field_simp
      ring
    have a3 : (o (n + 1)).RIB = yearForcing y - feedback p y.w_aero * (o (n + 1)).dtemp := by
      rw [r1, r2, r3, r4, t1]
      unfold yearForcing
      ring
    have a2' : (o (n + 1)).dtemp = yearForcing y / feedback p y.w_aero
      + (-(1 / (2 * feedback p y.w_aero)) - 1 / (2 * p.rlamdo)) * uptake p (o (n + 1)) := by
      rw [a2, a1]; ring
    refine ⟨a1, a2', ?_⟩
    rw [a3, a2']
    field_simp
    ring
  refine ⟨o, h, ?_, ?_, ?_, ?_⟩
  · rw [← tendsto_add_atTop_iff_nat 1]
    simp only [fun n => (air n).1]
    simpa using (up.const_mul (-(1 / (2 * feedback p y.w_aero)))).const_add (yearForcing y / feedback p y.w_aero)
  · rw [← tendsto_add_atTop_iff_nat 1]
    simp only [fun n => (air n).2.1]
    simpa using (up.const_mul (-(1 / (2 * feedback p y.w_aero)) - 1 / (2 * p.rlamdo))).const_add
      (yearForcing y / feedback p y.w_aero)
  · rw [← tendsto_add_atTop_iff_nat 1]
    exact up
  · rw [← tendsto_add_atTop_iff_nat 1]
    simp only [fun n => (air n).2.2]
    simpa using up.const_mul (feedback p y.w_aero * (1 / (2 * feedback p y.w_aero) + 1 / (2 * p.rlamdo)))

/-! ## The default parameters -/

theorem flat_stable (w : ℝ) : Stable flatPams (feedback flatPams w) flatPams.W := by
  refine ⟨flat_ordered, flat_gentle, ?_, ?_, ?_, ?_, ?_⟩ <;>
    simp only [flatPams, year, capacity, feedback] <;> norm_num

/-- Doubled carbon dioxide (3.7 W/m² everywhere, no volcanoes): with the default parameters and constant
upwelling the global temperature tends to 3.7 times the configured 0.61 K/(W/m²). -/
example : ∃ o, Repeats exactSolver (init flatPams) ⟨0, 3.7, 3.7, List.replicate 12 0, List.replicate 12 0⟩ o ∧
    Tendsto (fun n => (o n).dtemp) atTop (𝓝 (3.7 * 0.61)) ∧ Tendsto (fun n => (o n).RIB) atTop (𝓝 0) := by
  obtain ⟨o, h, -, h2, -, h3⟩ := C88_equilibrium exactSolver_exact flat_physical rfl rfl flat_deep flat_created
    (y := ⟨0, 3.7, 3.7, List.replicate 12 0, List.replicate 12 0⟩) rfl rfl (flat_feedback _) (flat_stable _)
  refine ⟨o, h, ?_, h3⟩
  have e : yearForcing ⟨0, 3.7, 3.7, List.replicate 12 0, List.replicate 12 0⟩ / feedback flatPams 0 = 3.7 * 0.61 := by
    simp only [yearForcing, average, feedback, flatPams]
    norm_num
  rw [← e]
  exact h2

/-- A warming year with the default parameters: the temperatures never fall. -/
example : ∃ o, Repeats exactSolver (init flatPams) warmYear o ∧ ∀ n, Below (o n) (o (n + 1)) := by
  have hy : Readable warmYear := by constructor <;> simp [warmYear]
  have hw : Warming warmYear := by constructor <;> simp [warmYear] <;> norm_num
  obtain ⟨o, h, -⟩ := C88_bounded exactSolver_exact flat_physical rfl flat_deep flat_created hy
    (flat_feedback _) (flat_stable _)
  exact ⟨o, h, C88_rises exactSolver_exact flat_physical rfl flat_ordered flat_gentle flat_deep flat_created hy hw
    (flat_feedback _) h⟩

end Verif.Props.C88
