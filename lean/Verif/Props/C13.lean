import Verif.Lemmas.Decay
import Verif.Lemmas.HandlerState

/-!
# C13 — the one-year concentration update is the exact decay solution
-/

namespace Verif.Props
open Verif.Py Verif.Model Verif.Model.Handler Verif.Spec Filter Topology

section
variable {κ : Type}

/-- The concentration a year starts from: last year's, or the prescribed one in the first year. -/
def PriorConc (h : Handler ℝ κ) (t : String) (yr : ℤ) (c : ℝ) : Prop :=
  ∃ y0, h.y0 = .ok y0 ∧ (y0 < yr → h.conc t (yr - 1) = some c) ∧
    (yr ≤ y0 → t ∈ h.concIn.cols ∧ yr ∈ h.concIn.idx ∧ h.concIn.cell t yr = c)

/-- The loss rate of a tracer: the inverse of its lifetime, with the methane chemistry for methane. -/
def LossRate (h : Handler ℝ κ) (t : String) (g : Gas ℝ) (c : ℝ) (yr : ℤ) (q : ℝ) : Prop :=
  (t ≠ "CH4" → q = 1 / g.tau1) ∧ (t = "CH4" → methaneLifetime h (1 / g.tau1) c yr = .ok q)

theorem concLocal_prior {h : Handler ℝ κ} {t : String} {yr : ℤ} {c : ℝ}
    (e : concLocal h t yr = .ok c) : PriorConc h t yr c := by
  unfold concLocal at e
  rw [bind_eq_ok] at e
  obtain ⟨y0, hy0, e⟩ := e
  refine ⟨y0, hy0, ?_, ?_⟩
  · intro hl
    rw [if_pos hl] at e
    unfold Handler.concAt at e
    split at e
    · split at e
      · rename_i v hv
        rw [hv]
        simpa using e
      · cases e
    · cases e
  · intro hl
    rw [if_neg (by omega)] at e
    exact frame_at'_eq_ok.1 e

theorem decayRate_loss {h : Handler ℝ κ} {t : String} {yr : ℤ} {c q : ℝ} {g : Gas ℝ}
    (hg : h.gas.get? t = some g) (e : decayRate h t c yr = .ok q) : LossRate h t g c yr q := by
  unfold decayRate at e
  rw [bind_eq_ok] at e
  obtain ⟨g', hg', e⟩ := e
  rw [gasAt_eq_ok, hg] at hg'
  obtain rfl : g = g' := by simpa using hg'
  have h1 : (1.0 : ℝ) = 1 := by norm_num
  simp only [h1] at e
  constructor
  · intro hne
    rw [if_neg hne] at e
    simpa using e.symm
  · intro heq
    rw [if_pos heq] at e
    exact e

/-- C13, the step itself: in an emission-driven year from the emission start on, the new
concentration of every gas other than CO2 is the solution after one year of
`dC/dt = (emissions + natural emissions) / beta - rate * C` started from the prior concentration. -/
theorem C13_step {ops : CarbonOps ℝ κ} {h h' : Handler ℝ κ} {yr : ℤ} {fb : Option (Dict ℝ)}
    (e : emi2conc ops h yr fb = .ok h')
    (hrun : pamB h.pam "conc_run" = .ok false)
    {es : ℤ} (hes : pamI h.pam "emstart" = .ok es) (hle : es ≤ yr) (hnd : h.concKeys.Nodup)
    {t : String} (ht : t ∈ h.concKeys) (hco2 : t ≠ "CO2") {g : Gas ℝ} (hg : h.gas.get? t = some g)
    (hu : g.concUnit ≠ "-") :
    ∃ c0 c1 q em, PriorConc h t yr c0 ∧ LossRate h t g c0 yr q ∧ h.emis.at' t yr = .ok em ∧
      h'.conc t yr = some c1 ∧
      (q ≠ 0 → g.beta ≠ 0 → AfterOneYear ((em + natOf h t g yr) / g.beta) q c0 c1) := by
  obtain ⟨run, hr, hcase⟩ := emi2conc_cases e
  rw [hrun] at hr
  obtain rfl : false = run := by simpa using hr
  rcases hcase with ⟨h1, -⟩ | ⟨-, es', hes', hcase⟩
  · cases h1
  rw [beforeStart_of_int hes, Except.ok.injEq] at hes'
  rcases hcase with ⟨h1, -⟩ | ⟨-, e⟩
  · rw [← hes', decide_eq_true_eq] at h1; omega
  obtain ⟨-, -, -, hk, -⟩ := tracerLoop_spec _ _ _ hnd e
  obtain ⟨g', hg', -, h2, -⟩ := hk t ht
  rw [show (addRowOfZeros h yr).gas = h.gas from rfl, hg] at hg'
  obtain rfl : g = g' := by simpa using hg'
  obtain ⟨cl, q, em, c1, c2, c3, c4⟩ := h2 hu hco2
  have s := same_addRowOfZeros h yr
  rw [concLocal_congr s (by simp [addRowOfZeros])] at c1
  rw [s.decayRate] at c2
  refine ⟨cl, _, q, em, concLocal_prior c1, decayRate_loss hg c2, c3, c4, ?_⟩
  intro hq _
  exact concUpdate_after hq

/-! ## What the decay solution does, from its specification -/

/-- C13: the new value lies between the old one and the equilibrium. -/
theorem C13_between {s q c0 c1 : ℝ} (hq : 0 < q) (h : AfterOneYear s q c0 c1) :
    min c0 (s / q) ≤ c1 ∧ c1 ≤ max c0 (s / q) := by
  rw [afterOneYear_iff hq.ne'] at h
  have he0 : 0 < Real.exp (-q) := Real.exp_pos _
  have he1 : Real.exp (-q) < 1 := by rw [Real.exp_lt_one_iff]; linarith
  subst h
  rcases le_total c0 (s / q) with hl | hl
  · rw [min_eq_left hl, max_eq_right hl]
    constructor <;> nlinarith
  · rw [min_eq_right hl, max_eq_left hl]
    constructor <;> nlinarith

/-- C13: unless it already is the equilibrium, the new value is strictly closer to it. -/
theorem C13_closer {s q c0 c1 : ℝ} (hq : 0 < q) (h : AfterOneYear s q c0 c1) (hne : c0 ≠ s / q) :
    |c1 - s / q| < |c0 - s / q| := by
  rw [afterOneYear_iff hq.ne'] at h
  have he0 : 0 < Real.exp (-q) := Real.exp_pos _
  have he1 : Real.exp (-q) < 1 := by rw [Real.exp_lt_one_iff]; linarith
  have : c1 - s / q = (c0 - s / q) * Real.exp (-q) := by rw [h]; ring
  rw [this, abs_mul, abs_of_pos he0]
  have hp : 0 < |c0 - s / q| := abs_pos.2 (sub_ne_zero.2 hne)
  nlinarith

/-- C13: non-negative old value and source give a non-negative new value. -/
theorem C13_nonneg {s q c0 c1 : ℝ} (hq : 0 < q) (h : AfterOneYear s q c0 c1) (hc : 0 ≤ c0)
    (hs : 0 ≤ s) : 0 ≤ c1 :=
  le_trans (le_min hc (div_nonneg hs hq.le)) (C13_between hq h).1

/-- C13: the new value increases strictly with the old one. -/
theorem C13_mono_prior {s q c0 c1 d0 d1 : ℝ} (hq : 0 < q) (h : AfterOneYear s q c0 c1)
    (h' : AfterOneYear s q d0 d1) (hl : c0 < d0) : c1 < d1 := by
  rw [afterOneYear_iff hq.ne'] at h h'
  have he0 : 0 < Real.exp (-q) := Real.exp_pos _
  subst h; subst h'
  nlinarith

/-- C13: the new value increases strictly with the source. -/
theorem C13_mono_source {s s' q c0 c1 d1 : ℝ} (hq : 0 < q) (h : AfterOneYear s q c0 c1)
    (h' : AfterOneYear s' q c0 d1) (hl : s < s') : c1 < d1 := by
  rw [afterOneYear_iff hq.ne'] at h h'
  have he1 : Real.exp (-q) < 1 := by rw [Real.exp_lt_one_iff]; linarith
  have hd : s / q < s' / q := by gcongr
  subst h; subst h'
  nlinarith

/-- C13: the equilibrium `source / rate` (source times lifetime) stays put. -/
theorem C13_equilibrium {s q c1 : ℝ} (hq : 0 < q) (h : AfterOneYear s q (s / q) c1) :
    c1 = s / q := by
  rw [afterOneYear_iff hq.ne'] at h
  rw [h]; ring

/-- C13: repeating the update with constant source converges to the equilibrium, from anywhere. -/
theorem C13_converges {s q : ℝ} (hq : 0 < q) (c : ℕ → ℝ)
    (h : ∀ n, AfterOneYear s q (c n) (c (n + 1))) : Tendsto c atTop (𝓝 (s / q)) := by
  have hform : ∀ n, c n = s / q + (c 0 - s / q) * Real.exp (-q) ^ n := by
    intro n
    induction n with
    | zero => simp
    | succ n ih =>
      have := h n
      rw [afterOneYear_iff hq.ne'] at this
      rw [this, ih, pow_succ]
      ring
  have he1 : Real.exp (-q) < 1 := by rw [Real.exp_lt_one_iff]; linarith
  have hp : Tendsto (fun n : ℕ => Real.exp (-q) ^ n) atTop (𝓝 0) :=
    tendsto_pow_atTop_nhds_zero_of_lt_one (Real.exp_pos _).le he1
  have := (hp.const_mul (c 0 - s / q)).const_add (s / q)
  simp only [mul_zero, add_zero] at this
  refine this.congr ?_
  intro n
  rw [hform n]

/-- C13 for one gas of a run: with positive lifetime, positive conversion factor and non-negative
emissions, a non-negative concentration stays non-negative and between the old value and the
equilibrium. -/
theorem C13_run_bounds {ops : CarbonOps ℝ κ} {h h' : Handler ℝ κ} {yr : ℤ} {fb : Option (Dict ℝ)}
    (e : emi2conc ops h yr fb = .ok h')
    (hrun : pamB h.pam "conc_run" = .ok false)
    {es : ℤ} (hes : pamI h.pam "emstart" = .ok es) (hle : es ≤ yr) (hnd : h.concKeys.Nodup)
    {t : String} (ht : t ∈ h.concKeys) (hco2 : t ≠ "CO2") {g : Gas ℝ} (hg : h.gas.get? t = some g)
    (hu : g.concUnit ≠ "-") (hch4 : t ≠ "CH4") (htau : 0 < g.tau1) (hb : 0 < g.beta)
    {em : ℝ} (hem : h.emis.at' t yr = .ok em) (hpos : 0 ≤ em + natOf h t g yr)
    {c0 : ℝ} (hc0 : PriorConc h t yr c0) (hc0p : 0 ≤ c0) :
    ∃ c1, h'.conc t yr = some c1 ∧ 0 ≤ c1 ∧
      min c0 ((em + natOf h t g yr) / g.beta * g.tau1) ≤ c1 ∧
      c1 ≤ max c0 ((em + natOf h t g yr) / g.beta * g.tau1) := by
  obtain ⟨d0, c1, q, em', hd0, hq, hem', hc1, hafter⟩ :=
    C13_step e hrun hes hle hnd ht hco2 hg hu
  rw [hem] at hem'
  obtain rfl : em = em' := by simpa using hem'
  obtain rfl : c0 = d0 := by
    obtain ⟨y, hy, a1, a2⟩ := hc0
    obtain ⟨y', hy', b1, b2⟩ := hd0
    rw [hy] at hy'
    obtain rfl : y = y' := by simpa using hy'
    by_cases hl : y < yr
    · have := a1 hl
      rw [b1 hl] at this
      simpa using this.symm
    · have h1 := (a2 (by omega)).2.2
      have h2 := (b2 (by omega)).2.2
      exact h1.symm.trans h2
  have hqe := hq.1 hch4
  have hq0 : 0 < q := by rw [hqe]; positivity
  have ha := hafter hq0.ne' hb.ne'
  refine ⟨c1, hc1, C13_nonneg hq0 ha hc0p (div_nonneg hpos hb.le), ?_⟩
  have hdiv : (em + natOf h t g yr) / g.beta / q = (em + natOf h t g yr) / g.beta * g.tau1 := by
    rw [hqe, div_div_eq_mul_div, div_one]
  have := C13_between hq0 ha
  rwa [hdiv] at this

/-! ## Non-vacuity -/

/-- Two years of a gas `X` (lifetime 10, conversion 2) next to the main gases; emissions are 4 units a
year and the prescribed concentration is 7. -/
noncomputable def exDecay : Handler ℝ Unit :=
  { gas := [("X", ⟨"ppt", 0, 2, 10, 0, 0, 1, 1⟩)]
    natCh4 := ⟨[], [], fun _ _ => 0⟩
    natN2o := ⟨[], [], fun _ _ => 0⟩
    concIn := ⟨["X"], [2000, 2001], fun _ _ => 7⟩
    emis := ⟨["X"], [2000, 2001], fun _ _ => 4⟩
    pam := [("conc_run", .bool false), ("emstart", .int 2000)]
    pert := none
    years := [2000, 2001]
    prec := ⟨[], [], ⟨[], fun _ _ => none⟩, []⟩
    carbon := ()
    concKeys := ["X"]
    conc := fun _ _ => none
    forcKeys := []
    forc := fun _ _ => 0 }

def exCarbon : CarbonOps ℝ Unit := ⟨fun _ _ => .ok (), fun _ _ _ _ => .ok (0, ()), fun _ _ => .ok ()⟩

example : ∃ h', emi2conc exCarbon exDecay 2000 none = .ok h' ∧
    pamB exDecay.pam "conc_run" = .ok false ∧ pamI exDecay.pam "emstart" = .ok 2000 ∧
    exDecay.concKeys.Nodup ∧ PriorConc exDecay "X" 2000 7 ∧ exDecay.emis.at' "X" 2000 = .ok 4 := by
  have h1 : pamB exDecay.pam "conc_run" = .ok false := by
    simp [pamB, exDecay, Dict.getE, Dict.get?, truthy, bind_ok, pure_ok]
  have h2 : pamI exDecay.pam "emstart" = .ok 2000 := by
    simp [pamI, exDecay, Dict.getE, Dict.get?, PyVal.toI, bind_ok]
  refine ⟨(addRowOfZeros exDecay 2000).setConc "X" 2000
    (concUpdate 2 (4 + 1) (1.0 / 10) 7), ?_, h1, h2, by simp [exDecay], ?_, ?_⟩
  · unfold emi2conc
    rw [h1, bind_ok]
    simp only [Bool.false_eq_true, if_false]
    rw [beforeStart_of_int h2, bind_ok, if_neg (by simp)]
    simp [exDecay, addRowOfZeros, tracerStep, otherStep, Handler.gasAt, Dict.getE, Dict.get?,
      concLocal, Handler.y0, Frame.at', setNatEm, decayRate, bind_ok, pure_ok, Handler.setConc]
  · exact ⟨2000, rfl, fun h => absurd h (by omega), fun _ => by simp [exDecay]⟩
  · simp [exDecay, Frame.at']
example : AfterOneYear 3 (1 / 2) 1 (6 + (1 - 6) * Real.exp (-(1 / 2))) := by
  rw [afterOneYear_iff (by norm_num)]; norm_num
example : ∃ c : ℕ → ℝ, ∀ n, AfterOneYear 3 (1 / 2) (c n) (c (n + 1)) := by
  refine ⟨fun n => 6 + (1 - 6) * Real.exp (-(1 / 2)) ^ n, fun n => ?_⟩
  rw [afterOneYear_iff (by norm_num)]
  simp only [pow_succ]
  ring

end
end Verif.Props
