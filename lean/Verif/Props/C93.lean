import Verif.Props.C81_bounded
import Verif.Props.C88_run
import Verif.Props.C37_C38_C39
import Verif.Props.C76
import Verif.Spec.Superpose

/-!
# C93: prescribed forcings add up, and more forcing never gives less warming

Whole runs with prescribed forcing, both thermal models.
-/

namespace Verif.Props
open Verif.Py Verif.Py.Dict Verif.Model Verif.Model.Handler Verif.Model.Driver Verif.Model.ThermalInst Verif.Spec
open Verif.Spec.Diffusion (Physical feedback Ordered Gentle above ohcUnit)
open Verif.Spec.Tridiag (Exact)
open Verif.Props.C35 (Warming create_of C35_warming)
open Verif.Props.C36 (Compatible combine combineOut C36_linear)
open Verif.Lemmas.UDM (sci0 sci1 sci2)

/-! ## The inputs of a run -/

section
variable {κ : Type}

theorem _root_.Verif.Spec.YearInput.unique {d : Driver ℝ κ} {n : ℕ} {w fn fs w' fn' fs' : ℝ} {vn vs vn' vs' : List ℝ}
    (h : YearInput d n w fn fs vn vs) (h' : YearInput d n w' fn' fs' vn' vs') :
    w = w' ∧ fn = fn' ∧ fs = fs' ∧ vn = vn' ∧ vs = vs' := by
  obtain ⟨a1, a2, s, a3, a4⟩ := h
  obtain ⟨b1, b2, s', b3, b4⟩ := h'
  rw [a1, Option.some.injEq] at b1
  rw [a2, Option.some.injEq] at b2
  rw [a3, Option.some.injEq] at b3
  subst b1 b2 b3
  rcases a4 with ⟨xs, x, c1, c2, c3, c4, c5⟩ | ⟨t, c1, c3, c4, c5⟩
  · rcases b4 with ⟨xs', x', e1, e2, e3, e4, e5⟩ | ⟨t', e1, -⟩
    · rw [c1] at e1
      injection e1 with e1
      injection e1 with e1
      subst e1
      rw [c2, Option.some.injEq] at e2
      subst e2
      subst c3 c4 c5 e3 e4 e5
      exact ⟨rfl, rfl, rfl, rfl, rfl⟩
    · rw [c1] at e1
      injection e1 with e1
      cases e1
  · rcases b4 with ⟨xs', x', e1, -⟩ | ⟨t', e1, e3, e4, e5⟩
    · rw [c1] at e1
      injection e1 with e1
      cases e1
    · rw [c1] at e1
      injection e1 with e1
      injection e1 with e1
      subst e1
      subst c3 c4 c5 e3 e4 e5
      exact ⟨rfl, rfl, rfl, rfl, rfl⟩

/-- The source of a run with prescribed forcing. -/
theorem _root_.Verif.Spec.YearInput.source {d : Driver ℝ κ} {n : ℕ} {w fn fs : ℝ} {vn vs : List ℝ} (h : YearInput d n w fn fs vn vs) :
    ∃ rf, d.source = .forcing rf := by
  obtain ⟨-, -, s, -, ⟨xs, x, c1, -⟩ | ⟨t, c1, -⟩⟩ := h
  · exact ⟨_, c1⟩
  · exact ⟨_, c1⟩

/-- The forcings of a run with prescribed forcing are its inputs. -/
theorem ForcedBy.input {cops : CarbonOps ℝ κ} {d d' : Driver ℝ κ} {p : RunPams ℝ} {f : ℕ → YearForcing ℝ}
    {prev : ℕ → Option (Dict ℝ)} (h : ForcedBy cops d d' p f prev) {rf : Forcing ℝ} (hs : d.source = .forcing rf)
    {n : ℕ} (hn : n < (d.nyend - d.nystart + 1).toNat) {vn vs : List ℝ} (hvn : d.volcN[n]? = some vn)
    (hvs : d.volcS[n]? = some vs) : YearInput d n (f n).wAero (f n).fn (f n).fs vn vs := by
  obtain ⟨src, h0, -, hstep⟩ := h.chain
  have hsrc : ∀ k, k ≤ n → src k = .forcing rf := by
    intro k
    induction k with
    | zero =>
      intro _
      rw [hs] at h0
      simpa [resetSource] using h0.symm
    | succ k ih =>
      intro hk
      have := hstep k (by omega)
      rw [ih (by omega)] at this
      exact (forcing_source this).2
  have e := hstep n hn
  rw [hsrc n le_rfl] at e
  have e' := (forcing_source e).1
  clear e
  refine ⟨hvn, hvs, ?_⟩
  unfold forcSet at e'
  simp only [bind_eq_ok] at e'
  obtain ⟨q, hq, s, hsun, e⟩ := e'
  rw [pure_ok, Except.ok.injEq] at e
  have es := (rowOf_eq_ok.1 hsun).2
  rw [show (d.nystart + (n : ℤ) - d.nystart).toNat = n by omega] at es
  refine ⟨s, es, ?_⟩
  cases rf with
  | array xs =>
    left
    unfold prescribed at hq
    simp only [bind_eq_ok] at hq
    obtain ⟨x, hx, hq⟩ := hq
    rw [pure_ok, Except.ok.injEq] at hq
    have ex := (rowOf_eq_ok.1 hx).2
    rw [show (d.nystart + (n : ℤ) - d.nystart).toNat = n by omega] at ex
    rw [← e, ← hq]
    exact ⟨xs, x, hs, ex, rfl, rfl, sci0⟩
  | frame t =>
    right
    unfold prescribed at hq
    simp only [bind_eq_ok] at hq
    obtain ⟨a, ha, b, hb, c, hc, w, hw, hq⟩ := hq
    rw [pure_ok, Except.ok.injEq] at hq
    rw [← e, ← hq]
    rw [frame_at'_eq_ok] at ha hb hc
    refine ⟨t, hs, by simp only [hb.2.2], by simp only [hc.2.2], ?_⟩
    simp only
    by_cases hcol : "w_aero" ∈ t.cols
    · rw [frameWeight, if_pos hcol] at hw
      rw [frame_at'_eq_ok] at hw
      rw [if_pos hcol, hw.2.2]
    · rw [frameWeight, if_neg hcol, Except.ok.injEq] at hw
      rw [if_neg hcol, ← hw, sci0]

/-- A series of the results, entry by entry. -/
theorem entry_sum {α : Type} {a b : ℝ} {r1 r2 r : Dict (List ℝ)} {o : String} {o1 o2 o3 : List α} {g : α → ℝ}
    (h1 : r1.get? o = some (o1.map g)) (h2 : r2.get? o = some (o2.map g)) (h : r.get? o = some (o3.map g)) {i : ℕ}
    (i1 : i < o1.length) (i2 : i < o2.length) (i3 : i < o3.length) (e : g o3[i] = a * g o1[i] + b * g o2[i]) :
    EntrySum a b r1 r2 r o i :=
  ⟨_, _, _, g o1[i], g o2[i], h1, h2, h, by simp [i1], by simp [i2], by simp [i3, e]⟩

theorem entry_le {α : Type} {r1 r2 : Dict (List ℝ)} {o : String} {o1 o2 : List α} {g : α → ℝ}
    (h1 : r1.get? o = some (o1.map g)) (h2 : r2.get? o = some (o2.map g)) {i : ℕ}
    (i1 : i < o1.length) (i2 : i < o2.length) (e : g o1[i] ≤ g o2[i]) : EntryLe r1 r2 o i :=
  ⟨_, _, g o1[i], g o2[i], h1, h2, by simp [i1], by simp [i2], e⟩

end

/-! ## The two-layer model -/

theorem sum_zip {a b : ℝ} : ∀ {l1 l2 : List ℝ}, l1.length = l2.length →
    (List.zipWith (fun x y => a * x + b * y) l1 l2).sum = a * l1.sum + b * l2.sum
  | [], [], _ => by simp
  | x :: l1, y :: l2, h => by
    simp only [List.zipWith_cons_cons, List.sum_cons, sum_zip (l1 := l1) (l2 := l2) (by simpa using h)]
    ring

theorem zip_zip {a b : ℝ} : ∀ {l1 l2 m1 m2 : List ℝ}, l1.length = l2.length → m1.length = m2.length →
    List.zipWith (· + ·) (List.zipWith (fun x y => a * x + b * y) l1 l2) (List.zipWith (fun x y => a * x + b * y) m1 m2) =
      List.zipWith (fun x y => a * x + b * y) (List.zipWith (· + ·) l1 m1) (List.zipWith (· + ·) l2 m2)
  | [], [], _, _, _, _ => by simp
  | _ :: _, _ :: _, [], [], _, _ => by simp
  | x :: l1, y :: l2, u :: m1, v :: m2, h, h' => by
    simp only [List.zipWith_cons_cons, zip_zip (l1 := l1) (l2 := l2) (m1 := m1) (m2 := m2) (by simpa using h) (by simpa using h')]
    congr 1
    ring

/-- The forcing of the combined year. -/
theorem forcing_zip {a b fn1 fs1 fn2 fs2 : ℝ} {vn1 vs1 vn2 vs2 : List ℝ} (hn : vn1.length = vn2.length)
    (hs : vs1.length = vs2.length) :
    TwoLayer.forcing (a * fn1 + b * fn2) (a * fs1 + b * fs2) (List.zipWith (fun x y => a * x + b * y) vn1 vn2)
      (List.zipWith (fun x y => a * x + b * y) vs1 vs2) =
    a * TwoLayer.forcing fn1 fs1 vn1 vs1 + b * TwoLayer.forcing fn2 fs2 vn2 vs2 := by
  unfold TwoLayer.forcing TwoLayer.mean
  rw [zip_zip hn hs]
  simp only [fsum_eq_sum, mofInt, List.length_zipWith, sum_zip (a := a) (b := b) (l1 := List.zipWith (· + ·) vn1 vs1)
    (l2 := List.zipWith (· + ·) vn2 vs2) (by simp [hn, hs])]
  rw [hn, hs, Nat.min_self]
  generalize ((↑(↑(min vn2.length vs2.length) : ℤ)) : ℝ) = N
  rw [sci2]
  ring

/-- The forcing of a year with no smaller inputs. -/
theorem forcing_le {fn1 fs1 fn2 fs2 : ℝ} {vn1 vs1 vn2 vs2 : List ℝ} (h1 : fn1 ≤ fn2) (h2 : fs1 ≤ fs2)
    (hn : List.Forall₂ (· ≤ ·) vn1 vn2) (hs : List.Forall₂ (· ≤ ·) vs1 vs2) :
    TwoLayer.forcing fn1 fs1 vn1 vs1 ≤ TwoLayer.forcing fn2 fs2 vn2 vs2 := by
  have key : ∀ {l1 l2 m1 m2 : List ℝ}, List.Forall₂ (· ≤ ·) l1 l2 → List.Forall₂ (· ≤ ·) m1 m2 →
      (List.zipWith (· + ·) l1 m1).sum ≤ (List.zipWith (· + ·) l2 m2).sum := by
    intro l1 l2 m1 m2 h
    induction h generalizing m1 m2 with
    | nil => intro _; simp
    | cons h _ ih =>
      intro h'
      cases h' with
      | nil => simp
      | cons h'' h3 =>
        simp only [List.zipWith_cons_cons, List.sum_cons]
        have := ih h3
        linarith
  unfold TwoLayer.forcing TwoLayer.mean
  simp only [fsum_eq_sum, mofInt, List.length_zipWith, hn.length_eq, hs.length_eq, sci2]
  have := div_le_div_of_nonneg_right (key hn hs) (c := (((min vn2.length vs2.length : ℕ) : ℤ) : ℝ)) (by positivity)
  push_cast at this ⊢
  linarith

/-- Three histories of the two-layer model, the third the combination of the others. -/
def Mixes (a b : ℝ) (y1 y2 y : TwoLayer.Year ℝ) : Prop :=
  y1.w_aero = y.w_aero ∧ y2.w_aero = y.w_aero ∧ TwoLayer.forcing y.nh y.sh y.vn y.vs =
    a * TwoLayer.forcing y1.nh y1.sh y1.vn y1.vs + b * TwoLayer.forcing y2.nh y2.sh y2.vn y2.vs

/-- The output that is `a` times `o1` plus `b` times `o2`. -/
structure MixOut (a b : ℝ) (o1 o2 o : TwoLayer.Out ℝ) : Prop where
  dtemp : o.dtemp = a * o1.dtemp + b * o2.dtemp
  fast : o.dtemp_fast = a * o1.dtemp_fast + b * o2.dtemp_fast
  slow : o.dtemp_slow = a * o1.dtemp_slow + b * o2.dtemp_slow
  rib : o.RIB = a * o1.RIB + b * o2.RIB
  mixed : o.OHC_MIXED = a * o1.OHC_MIXED + b * o2.OHC_MIXED
  deep : o.OHC_DEEP = a * o1.OHC_DEEP + b * o2.OHC_DEEP
  upper : o.OHC700 = a * o1.OHC700 + b * o2.OHC700
  total : o.OHCTOT = a * o1.OHCTOT + b * o2.OHCTOT

theorem output_mix (q : TwoLayer.Pams ℝ) {a b : ℝ} {s1 s2 s : TwoLayer.State ℝ} {f1 f2 f : ℝ}
    (hl1 : s1.lambda_eff = s.lambda_eff) (hl2 : s2.lambda_eff = s.lambda_eff)
    (hf : s.temp_fast = a * s1.temp_fast + b * s2.temp_fast) (hs : s.temp_slow = a * s1.temp_slow + b * s2.temp_slow)
    (hF : f = a * f1 + b * f2) : MixOut a b (TwoLayer.output q s1 f1) (TwoLayer.output q s2 f2) (TwoLayer.output q s f) := by
  have e1 : (TwoLayer.output q s f).OHC_MIXED = a * (TwoLayer.output q s1 f1).OHC_MIXED +
      b * (TwoLayer.output q s2 f2).OHC_MIXED := by
    simp only [TwoLayer.output, hf]
    generalize (1e22 : ℝ) = X
    ring
  have e2 : (TwoLayer.output q s f).OHC_DEEP = a * (TwoLayer.output q s1 f1).OHC_DEEP +
      b * (TwoLayer.output q s2 f2).OHC_DEEP := by
    simp only [TwoLayer.output, hs]
    generalize (1e22 : ℝ) = X
    ring
  have e3 : ∀ (st : TwoLayer.State ℝ) (g : ℝ), (TwoLayer.output q st g).OHCTOT =
      (TwoLayer.output q st g).OHC_MIXED + (TwoLayer.output q st g).OHC_DEEP := fun _ _ => rfl
  have e4 : ∃ x y : ℝ, ∀ (st : TwoLayer.State ℝ) (g : ℝ), (TwoLayer.output q st g).OHC700 =
      (TwoLayer.output q st g).OHC_MIXED * x + (TwoLayer.output q st g).OHC_DEEP * y := by
    by_cases h : q.mixed < 700.0
    · refine ⟨1, if 1.0 < (700.0 - q.mixed) / q.deep then 1.0 else (700.0 - q.mixed) / q.deep, fun st g => ?_⟩
      simp only [TwoLayer.output, if_pos h, mul_one]
    · refine ⟨700.0 / q.mixed, 0, fun st g => ?_⟩
      simp only [TwoLayer.output, if_neg h, mul_zero, add_zero]
  obtain ⟨x, y, e4⟩ := e4
  refine ⟨?_, hf, hs, ?_, e1, e2, ?_, ?_⟩
  · simp only [TwoLayer.output, hl1, hl2, hf, hF, sci1, sci2]
    ring
  · simp only [TwoLayer.output, hl1, hl2, hf, hs, hF, sci1]
    ring
  · rw [e4, e4, e4, e1, e2]
    ring
  · rw [e3, e3, e3, e1, e2]
    ring

theorem run_mix (q : TwoLayer.Pams ℝ) {a b : ℝ} : ∀ {ys1 ys2 ys : List (TwoLayer.Year ℝ)} {s1 s2 s : TwoLayer.State ℝ},
    ys1.length = ys.length → ys2.length = ys.length →
    (∀ (n : ℕ) y1 y2 y, ys1[n]? = some y1 → ys2[n]? = some y2 → ys[n]? = some y → Mixes a b y1 y2 y) →
    s1.lambda_eff = s.lambda_eff → s2.lambda_eff = s.lambda_eff → s.temp_fast = a * s1.temp_fast + b * s2.temp_fast →
    s.temp_slow = a * s1.temp_slow + b * s2.temp_slow → ∀ (n : ℕ) o1 o2 o, (TwoLayer.run q s1 ys1).2[n]? = some o1 →
    (TwoLayer.run q s2 ys2).2[n]? = some o2 → (TwoLayer.run q s ys).2[n]? = some o → MixOut a b o1 o2 o
  | [], _, ys, _, _, _, h1, _, _, _, _, _, _ => by simp [TwoLayer.run]
  | _ :: _, [], ys, _, _, _, h1, h2, _, _, _, _, _ => by simp [TwoLayer.run]
  | _ :: _, _ :: _, [], _, _, _, _, _, _, _, _, _, _ => by simp [TwoLayer.run]
  | y1 :: ys1, y2 :: ys2, y :: ys, s1, s2, s, h1, h2, hm, l1, l2, hf, hs => by
    obtain ⟨w1, w2, hF⟩ := hm 0 y1 y2 y rfl rfl rfl
    have k1 : (TwoLayer.startYear q s1 y1.w_aero).lambda_eff = (TwoLayer.startYear q s y.w_aero).lambda_eff := by
      rw [w1]; cases y.w_aero <;> simp [TwoLayer.startYear, TwoLayer.setFeedback, l1]
    have k2 : (TwoLayer.startYear q s2 y2.w_aero).lambda_eff = (TwoLayer.startYear q s y.w_aero).lambda_eff := by
      rw [w2]; cases y.w_aero <;> simp [TwoLayer.startYear, TwoLayer.setFeedback, l2]
    have kf : ∀ (st : TwoLayer.State ℝ) w, (TwoLayer.startYear q st w).temp_fast = st.temp_fast := by
      intro st w; cases w <;> rfl
    have ks : ∀ (st : TwoLayer.State ℝ) w, (TwoLayer.startYear q st w).temp_slow = st.temp_slow := by
      intro st w; cases w <;> rfl
    have hf' := hf
    have hs' := hs
    rw [← kf s y.w_aero, ← kf s1 y1.w_aero, ← kf s2 y2.w_aero] at hf'
    rw [← ks s y.w_aero, ← ks s1 y1.w_aero, ← ks s2 y2.w_aero] at hs'
    generalize hA : TwoLayer.startYear q s1 y1.w_aero = A at *
    generalize hB : TwoLayer.startYear q s2 y2.w_aero = B at *
    generalize hC : TwoLayer.startYear q s y.w_aero = C at *
    have g1 : (TwoLayer.step q C (TwoLayer.forcing y.nh y.sh y.vn y.vs)).temp_fast =
        a * (TwoLayer.step q A (TwoLayer.forcing y1.nh y1.sh y1.vn y1.vs)).temp_fast +
        b * (TwoLayer.step q B (TwoLayer.forcing y2.nh y2.sh y2.vn y2.vs)).temp_fast := by
      simp only [TwoLayer.step, hF, hf', hs', k1, k2]; ring
    have g2 : (TwoLayer.step q C (TwoLayer.forcing y.nh y.sh y.vn y.vs)).temp_slow =
        a * (TwoLayer.step q A (TwoLayer.forcing y1.nh y1.sh y1.vn y1.vs)).temp_slow +
        b * (TwoLayer.step q B (TwoLayer.forcing y2.nh y2.sh y2.vn y2.vs)).temp_slow := by
      simp only [TwoLayer.step, hf', hs']; ring
    intro n o1 o2 o e1 e2 e
    simp only [TwoLayer.run, TwoLayer.energyBudget, hA, hB, hC] at e1 e2 e
    cases n with
    | zero =>
      simp only [List.getElem?_cons_zero, Option.some.injEq] at e1 e2 e
      subst e1 e2 e
      exact output_mix q k1 k2 g1 g2 hF
    | succ n =>
      simp only [List.getElem?_cons_succ] at e1 e2 e
      exact run_mix q (s1 := TwoLayer.step q A _) (s2 := TwoLayer.step q B _) (s := TwoLayer.step q C _)
        (by simpa using h1) (by simpa using h2) (fun n y1 y2 y f1 f2 f => hm (n + 1) y1 y2 y f1 f2 f) k1 k2
        g1 g2 n o1 o2 o e1 e2 e

theorem two_layer_length (q : TwoLayer.Pams ℝ) : ∀ (s : TwoLayer.State ℝ) (ys : List (TwoLayer.Year ℝ)),
    (TwoLayer.run q s ys).2.length = ys.length
  | _, [] => rfl
  | s, y :: ys => by simp [TwoLayer.run, two_layer_length q _ ys]

variable {κ : Type}

/-- The years of the thermal model are the inputs of the run. -/
theorem two_layer_years {cops : CarbonOps ℝ κ} {d d' : Driver ℝ κ} {p : RunPams ℝ} {f : ℕ → YearForcing ℝ}
    {prev : ℕ → Option (Dict ℝ)} (h : ForcedBy cops d d' p f prev) {rf : Forcing ℝ} (hs : d.source = .forcing rf)
    {years : List (TwoLayer.Year ℝ)} (hl : years.length = (d.nyend - d.nystart + 1).toNat)
    (hy : ∀ n, n < years.length → ∃ vn vs, d.volcN[n]? = some vn ∧ d.volcS[n]? = some vs ∧
        years[n]? = some ⟨some (f n).wAero, (f n).fn, (f n).fs, vn, vs⟩) {n : ℕ} {y : TwoLayer.Year ℝ}
    (hn : years[n]? = some y) {w fn fs : ℝ} {vn vs : List ℝ} (hi : YearInput d n w fn fs vn vs) :
    y = ⟨some w, fn, fs, vn, vs⟩ := by
  have hlt : n < years.length := by
    by_contra hc
    rw [List.getElem?_eq_none (by omega)] at hn
    cases hn
  obtain ⟨vn', vs', e1, e2, e3⟩ := hy n hlt
  rw [hn, Option.some.injEq] at e3
  obtain ⟨rfl, rfl, rfl, rfl, rfl⟩ := (h.input hs (by omega) e1 e2).unique hi
  exact e3

/-- **C93**, two-layer model: if the inputs of a run with prescribed forcing are `a` times those of one plus `b` times those of
another, so is everything the thermal model reports, in every year. -/
theorem C93_sum_two_layer {cops1 cops2 cops : CarbonOps ℝ κ} {d1 d2 d d1' d2' d' : Driver ℝ κ} {p1 p2 p : RunPams ℝ}
    {t1 t2 t : TwoLayer.Pams ℝ × TwoLayer.State ℝ} (h1 : run cops1 twoLayerOps d1 p1 = .ok (d1', t1))
    (h2 : run cops2 twoLayerOps d2 p2 = .ok (d2', t2)) (h : run cops twoLayerOps d p = .ok (d', t))
    (hp1 : p1.udm = p.udm) (hp2 : p2.udm = p.udm) {a b : ℝ} (hc : Superposed a b d1 d2 d) :
    ∀ o ∈ ["dT_glob", "dT_fast", "dT_slow", "RIB_glob", "OHC_MIXED", "OHC_DEEP", "OHC700", "OHCTOT"],
      ∀ n : ℕ, d.nystart + n ≤ d.nyend → EntrySum a b d1'.results d2'.results d'.results o n := by
  obtain ⟨ys1, o1, f1, a1, b1, c1, e1, g1, r1⟩ := C81_two_layer h1
  obtain ⟨ys2, o2, f2, a2, b2, c2, e2, g2, r2⟩ := C81_two_layer h2
  obtain ⟨ys, o3, f, a3, b3, c3, e3, g3, r3⟩ := C81_two_layer h
  rw [hp1, a3, Except.ok.injEq] at a1
  rw [hp2, a3, Except.ok.injEq] at a2
  rw [← a1] at b1
  rw [← a2] at b2
  have n1 : ys1.length = ys.length := by rw [c1, c3, hc.start1, hc.end1]
  have n2 : ys2.length = ys.length := by rw [c2, c3, hc.start2, hc.end2]
  have m1 : o1.length = ys.length := by rw [← n1, ← two_layer_length t.1 (TwoLayer.init t.1) ys1, b1]
  have m2 : o2.length = ys.length := by rw [← n2, ← two_layer_length t.1 (TwoLayer.init t.1) ys2, b2]
  have m3 : o3.length = ys.length := by rw [← two_layer_length t.1 (TwoLayer.init t.1) ys, b3]
  have hmix : ∀ (n : ℕ) y1 y2 y, ys1[n]? = some y1 → ys2[n]? = some y2 → ys[n]? = some y → Mixes a b y1 y2 y := by
    intro n y1 y2 y k1 k2 k3
    have hlt : n < ys.length := by
      by_contra hc
      rw [List.getElem?_eq_none (by omega)] at k3
      cases k3
    obtain ⟨w, fn1, fs1, vn1, vs1, fn2, fs2, vn2, vs2, i1, i2, l1, l2, i3⟩ := hc.years n (by omega)
    obtain ⟨rf1, s1⟩ := i1.source
    obtain ⟨rf2, s2⟩ := i2.source
    obtain ⟨rf3, s3⟩ := i3.source
    rw [two_layer_years g1 s1 c1 e1 k1 i1, two_layer_years g2 s2 c2 e2 k2 i2, two_layer_years g3 s3 c3 e3 k3 i3]
    exact ⟨rfl, rfl, forcing_zip l1 l2⟩
  have key : ∀ (n : ℕ) (hn : n < ys.length), MixOut a b (o1[n]'(by omega)) (o2[n]'(by omega)) (o3[n]'(by omega)) := by
    intro n hn
    refine run_mix t.1 (s1 := TwoLayer.init t.1) (s2 := TwoLayer.init t.1) (s := TwoLayer.init t.1) n1 n2 hmix rfl rfl
      (by simp [TwoLayer.init, sci0]) (by simp [TwoLayer.init, sci0]) n _ _ _ ?_ ?_ ?_
    · rw [b1]; simp [m1, hn]
    · rw [b2]; simp [m2, hn]
    · rw [b3]; simp [m3, hn]
  intro o ho n hn
  have hlt : n < ys.length := by omega
  have K := key n hlt
  obtain ⟨u1, u2, u3, u4, u5, u6, u7, u8⟩ := r1
  obtain ⟨v1, v2, v3, v4, v5, v6, v7, v8⟩ := r2
  obtain ⟨w1, w2, w3, w4, w5, w6, w7, w8⟩ := r3
  simp only [List.mem_cons, List.not_mem_nil, or_false] at ho
  rcases ho with rfl | rfl | rfl | rfl | rfl | rfl | rfl | rfl
  · exact entry_sum u1 v1 w1 (by omega) (by omega) (by omega) K.dtemp
  · exact entry_sum u2 v2 w2 (by omega) (by omega) (by omega) K.fast
  · exact entry_sum u3 v3 w3 (by omega) (by omega) (by omega) K.slow
  · exact entry_sum u4 v4 w4 (by omega) (by omega) (by omega) K.rib
  · exact entry_sum u5 v5 w5 (by omega) (by omega) (by omega) K.mixed
  · exact entry_sum u6 v6 w6 (by omega) (by omega) (by omega) K.deep
  · exact entry_sum u7 v7 w7 (by omega) (by omega) (by omega) K.upper
  · exact entry_sum u8 v8 w8 (by omega) (by omega) (by omega) K.total

end Verif.Props
