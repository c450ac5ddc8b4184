import Verif.Lemmas.HandlerState
import Verif.Lemmas.Decay

/-!
# C17 — methane lifetime modes

`decayRate h "CH4" c yr` is the total loss rate of methane of a year that starts from concentration `c`.
-/

namespace Verif.Props
open Verif.Py Verif.Model Verif.Model.Handler

section
variable {κ : Type}

/-- The OH scaling of the TAR mode: one plus the relative OH change against year 2000. -/
noncomputable def ohScaling (c nox nox0 co co0 voc voc0 : ℝ) : ℝ :=
  1 - 0.32 * (Real.log c - Real.log 1751) + 0.0042 * (nox - nox0) - 0.000105 * (co - co0)
    - 0.000315 * (voc - voc0)

/-- The OH scaling of a year, from the emission table. -/
def OhScaling (h : Handler ℝ κ) (c : ℝ) (yr : ℤ) (s : ℝ) : Prop :=
  ∃ nox nox0 co co0 voc voc0, h.emis.at' "NOx" yr = .ok nox ∧ h.emis.at' "NOx" 2000 = .ok nox0 ∧
    h.emis.at' "CO" yr = .ok co ∧ h.emis.at' "CO" 2000 = .ok co0 ∧
    h.emis.at' "NMVOC" yr = .ok voc ∧ h.emis.at' "NMVOC" 2000 = .ok voc0 ∧
    s = ohScaling c nox nox0 co co0 voc voc0

/-- The loss rate in every mode: the part that depends on the mode, plus the stratospheric and soil
sinks `1/TAU2 + 1/TAU3`, which every mode adds. -/
theorem C17_rate {h : Handler ℝ κ} {c : ℝ} {yr : ℤ} {q : ℝ} (e : decayRate h "CH4" c yr = .ok q) :
    ∃ g mode k, h.gas.get? "CH4" = some g ∧ h.pam.get? "lifetime_mode" = some mode ∧
      q = k + 1 / g.tau2 + 1 / g.tau3 ∧
      (mode = .str "TAR" → ∃ s, OhScaling h c yr s ∧ k = 1 / g.tau1 * s) ∧
      (mode = .str "CONSTANT_12" → k = 1 / 12) ∧
      (mode = .str "WIGLEY" → k = 1 / g.tau1 * (c / 1700) ^ (-0.238 : ℝ)) ∧
      (mode ≠ .str "TAR" → mode ≠ .str "CONSTANT_12" → mode ≠ .str "WIGLEY" → k = 1 / g.tau1) := by
  unfold decayRate at e
  rw [bind_eq_ok] at e
  obtain ⟨g, hg, e⟩ := e
  rw [gasAt_eq_ok] at hg
  simp only [if_true] at e
  unfold methaneLifetime at e
  simp only [bind_eq_ok] at e
  obtain ⟨k, hk, g', hg', e⟩ := e
  rw [gasAt_eq_ok, hg] at hg'
  obtain rfl : g = g' := by simpa using hg'
  rw [pure_ok, Except.ok.injEq] at e
  unfold lifetimeMode at hk
  rw [bind_eq_ok] at hk
  obtain ⟨mode, hm, hk⟩ := hk
  have hm' : h.pam.get? "lifetime_mode" = some mode := by
    unfold Dict.getE at hm
    split at hm
    · rename_i v hv
      rw [hv]; simpa using hm
    · cases hm
  have isStr_iff : ∀ s, Factory.isStr mode s = true ↔ mode = .str s := by
    intro s
    unfold Factory.isStr
    cases mode <;> simp
  have h1 : (1.0 : ℝ) = 1 := by norm_num
  refine ⟨g, mode, k, hg, hm', ?_, ?_, ?_, ?_, ?_⟩
  · rw [← e, h1]
  · rintro rfl
    rw [if_pos (by rw [isStr_iff])] at hk
    rw [bind_eq_ok] at hk
    obtain ⟨d, hd, hk⟩ := hk
    rw [pure_ok, Except.ok.injEq] at hk
    unfold dlnOh at hd
    simp only [bind_eq_ok] at hd
    obtain ⟨nox, a1, nox0, a2, co, a3, co0, a4, voc, a5, voc0, a6, hd⟩ := hd
    rw [pure_ok, Except.ok.injEq] at hd
    refine ⟨_, ⟨nox, nox0, co, co0, voc, voc0, a1, a2, a3, a4, a5, a6, rfl⟩, ?_⟩
    rw [← hk, ← hd]
    unfold ohScaling
    simp only [MathFn.log, h1]
    norm_num
    left
    ring
  · rintro rfl
    rw [if_neg (by rw [isStr_iff]; simp), if_pos (by rw [isStr_iff])] at hk
    rw [Except.ok.injEq] at hk
    rw [← hk]; norm_num
  · rintro rfl
    rw [if_neg (by rw [isStr_iff]; simp), if_neg (by rw [isStr_iff]; simp),
      if_pos (by rw [isStr_iff]), Except.ok.injEq] at hk
    rw [← hk]
    simp only [MathFn.pow, h1]
    norm_num
  · intro n1 n2 n3
    rw [if_neg (by rw [isStr_iff]; exact n1), if_neg (by rw [isStr_iff]; exact n2),
      if_neg (by rw [isStr_iff]; exact n3), Except.ok.injEq] at hk
    rw [← hk, h1]

/-- C17: the methane loss rate is positive in every mode, for positive lifetimes and a positive
concentration, in the TAR mode as long as the OH scaling stays positive. -/
theorem C17_positive {h : Handler ℝ κ} {c : ℝ} {yr : ℤ} {q : ℝ}
    (e : decayRate h "CH4" c yr = .ok q) (hc : 0 < c)
    (hg : ∀ g, h.gas.get? "CH4" = some g → 0 < g.tau1 ∧ 0 < g.tau2 ∧ 0 < g.tau3)
    (hoh : h.pam.get? "lifetime_mode" = some (.str "TAR") → ∀ s, OhScaling h c yr s → 0 < s) :
    0 < q := by
  obtain ⟨g, mode, k, h1, h2, h3, k1, k2, k3, k4⟩ := C17_rate e
  obtain ⟨t1, t2, t3⟩ := hg g h1
  have hk : 0 < k := by
    by_cases m1 : mode = .str "TAR"
    · obtain ⟨s, hs, rfl⟩ := k1 m1
      have := hoh (by rw [h2, m1]) s hs
      positivity
    · by_cases m2 : mode = .str "CONSTANT_12"
      · rw [k2 m2]; norm_num
      · by_cases m3 : mode = .str "WIGLEY"
        · rw [k3 m3]; positivity
        · rw [k4 m1 m2 m3]; positivity
  rw [h3]
  positivity

/-- C17: the positivity condition on OH is needed and sharp for the mode-dependent part: the TAR rate
falls below the other sinks exactly when the OH scaling is negative. -/
theorem C17_tar_sign {h : Handler ℝ κ} {c : ℝ} {yr : ℤ} {q : ℝ}
    (e : decayRate h "CH4" c yr = .ok q) (hm : h.pam.get? "lifetime_mode" = some (.str "TAR"))
    {g : Gas ℝ} (hg : h.gas.get? "CH4" = some g) (ht : 0 < g.tau1) :
    ∃ s, OhScaling h c yr s ∧ (q < 1 / g.tau2 + 1 / g.tau3 ↔ s < 0) := by
  obtain ⟨g', mode, k, h1, h2, h3, k1, -, -, -⟩ := C17_rate e
  rw [hg] at h1
  obtain rfl : g = g' := by simpa using h1
  rw [hm] at h2
  obtain ⟨s, hs, hk⟩ := k1 (by simpa using h2.symm)
  refine ⟨s, hs, ?_⟩
  have h0 : 0 < 1 / g.tau1 := by positivity
  rw [h3, hk]
  constructor
  · intro hlt
    by_contra hn
    have : 0 ≤ 1 / g.tau1 * s := mul_nonneg h0.le (not_lt.1 hn)
    linarith
  · intro hlt
    have : 1 / g.tau1 * s < 0 := mul_neg_of_pos_of_neg h0 hlt
    linarith

/-- C17, constant mode, the part that holds: with the mode string `"CONSTANT_12"` the tropospheric sink
is exactly `1/12` per year whatever the concentration, emissions and year. What does not hold is that the
documented string `"CONSTANT"` selects it, and that the lifetime is 12 years including the other two
sinks: see `C17_constant_false` and `C17_constant_sinks_false`. -/
theorem C17_constant_partial {h : Handler ℝ κ} {c c' : ℝ} {yr yr' : ℤ} {q q' : ℝ}
    (hm : h.pam.get? "lifetime_mode" = some (.str "CONSTANT_12"))
    (e : decayRate h "CH4" c yr = .ok q) (e' : decayRate h "CH4" c' yr' = .ok q') :
    q = q' ∧ ∃ g, h.gas.get? "CH4" = some g ∧ q = 1 / 12 + 1 / g.tau2 + 1 / g.tau3 := by
  obtain ⟨g, mode, k, h1, h2, h3, -, k2, -, -⟩ := C17_rate e
  obtain ⟨g', mode', k', h1', h2', h3', -, k2', -, -⟩ := C17_rate e'
  rw [hm] at h2 h2'
  rw [h1] at h1'
  obtain rfl : g = g' := by simpa using h1'
  rw [h3, h3', k2 (by simpa using h2.symm), k2' (by simpa using h2'.symm)]
  exact ⟨rfl, g, h1, rfl⟩

end

/-! ## Non-vacuity and witnesses -/

/-- A handler with a methane row (lifetimes 10, 120 and 160 years) and the three ozone precursors. -/
noncomputable def exCh4 (mode : String) : Handler ℝ Unit :=
  { gas := [("CH4", ⟨"ppb", 0, 1, 10, 120, 160, 0, 1⟩)],
    natCh4 := ⟨[], [], fun _ _ => 0⟩, natN2o := ⟨[], [], fun _ _ => 0⟩,
    concIn := ⟨[], [], fun _ _ => 0⟩,
    emis := ⟨["NOx", "CO", "NMVOC"], [2000, 2001], fun _ _ => 30⟩,
    pam := [("lifetime_mode", .str mode)], pert := none, years := [2000, 2001],
    prec := ⟨[], [], ⟨[], fun _ _ => none⟩, []⟩, carbon := (), concKeys := ["CH4"],
    conc := fun _ _ => none, forcKeys := [], forc := fun _ _ => 0 }

theorem exCh4_gas (m : String) : (exCh4 m).gas.get? "CH4" = some ⟨"ppb", 0, 1, 10, 120, 160, 0, 1⟩ := by
  simp [exCh4, Dict.get?]

theorem exCh4_mode (m : String) : (exCh4 m).pam.get? "lifetime_mode" = some (.str m) := by
  simp [exCh4, Dict.get?]

theorem exCh4_runs (m : String) (c : ℝ) : ∃ q, decayRate (exCh4 m) "CH4" c 2001 = .ok q := by
  have h1 : (exCh4 m).gasAt "CH4" = .ok ⟨"ppb", 0, 1, 10, 120, 160, 0, 1⟩ :=
    gasAt_eq_ok.2 (exCh4_gas m)
  have h2 : (exCh4 m).pam.getE "lifetime_mode" = .ok (.str m) := by
    simp [Dict.getE, exCh4_mode]
  have h3 : ∀ n, n ∈ ["NOx", "CO", "NMVOC"] → ∀ y : ℤ, y ∈ [2000, 2001] →
      (exCh4 m).emis.at' n y = .ok 30 := by
    intro n hn y hy
    exact frame_at'_eq_ok.2 ⟨hn, hy, rfl⟩
  obtain ⟨d, h4⟩ : ∃ d, dlnOh (exCh4 m) c 2001 = .ok d := by
    unfold dlnOh
    simp only [h3 "NOx" (by simp) 2001 (by simp), h3 "NOx" (by simp) 2000 (by simp),
      h3 "CO" (by simp) 2001 (by simp), h3 "CO" (by simp) 2000 (by simp),
      h3 "NMVOC" (by simp) 2001 (by simp), h3 "NMVOC" (by simp) 2000 (by simp), bind_ok, pure_ok]
    exact ⟨_, rfl⟩
  have h5 : ∀ q, ∃ k, lifetimeMode (exCh4 m) q c 2001 = .ok k := by
    intro q
    unfold lifetimeMode
    rw [h2, bind_ok, h4]
    split
    · exact ⟨_, rfl⟩
    · split
      · exact ⟨_, rfl⟩
      · split
        · exact ⟨_, rfl⟩
        · exact ⟨_, rfl⟩
  obtain ⟨k, hk⟩ := h5 (1.0 / 10)
  unfold decayRate
  rw [h1, bind_ok]
  simp only [if_true]
  unfold methaneLifetime
  rw [hk, bind_ok, h1, bind_ok]
  exact ⟨_, rfl⟩

/-- The hypotheses of `C17_positive` are met in the TAR mode at the reference concentration (and below):
the OH scaling there is at least one. -/
example : ∃ q, decayRate (exCh4 "TAR") "CH4" 1751 2001 = .ok q ∧ 0 < q := by
  obtain ⟨q, hq⟩ := exCh4_runs "TAR" 1751
  refine ⟨q, hq, C17_positive hq (by norm_num) ?_ ?_⟩
  · intro g hg
    rw [exCh4_gas] at hg
    simp only [Option.some.injEq] at hg
    subst hg
    norm_num
  · rintro - s ⟨nox, nox0, co, co0, voc, voc0, a1, a2, a3, a4, a5, a6, rfl⟩
    have v : ∀ n y x, (exCh4 "TAR").emis.at' n y = .ok x → x = 30 := fun n y x e =>
      (frame_at'_eq_ok.1 e).2.2.symm
    rw [v _ _ _ a1, v _ _ _ a2, v _ _ _ a3, v _ _ _ a4, v _ _ _ a5, v _ _ _ a6]
    unfold ohScaling
    norm_num

/-- C17 fails for the documented string `"CONSTANT"` (README, line 102): the methane lifetime is then
not twelve years; the table's `TAU1` is used. -/
theorem C17_constant_false : ∃ (h : Handler ℝ Unit) (q : ℝ),
    h.pam.get? "lifetime_mode" = some (.str "CONSTANT") ∧ decayRate h "CH4" 1700 2001 = .ok q ∧
    q ≠ 1 / 12 ∧ q ≠ 1 / 12 + 1 / 120 + 1 / 160 := by
  obtain ⟨q, hq⟩ := exCh4_runs "CONSTANT" 1700
  refine ⟨_, q, exCh4_mode _, hq, ?_⟩
  obtain ⟨g, mode, k, h1, h2, h3, -, -, -, k4⟩ := C17_rate hq
  rw [exCh4_gas] at h1
  rw [exCh4_mode] at h2
  simp only [Option.some.injEq] at h1 h2
  subst h1 h2
  rw [h3, k4 (by simp) (by simp) (by simp)]
  norm_num

/-- C17: and with `"CONSTANT_12"` the lifetime is shorter than twelve years, because the two other sinks
are added. -/
theorem C17_constant_sinks_false : ∃ (h : Handler ℝ Unit) (q : ℝ),
    h.pam.get? "lifetime_mode" = some (.str "CONSTANT_12") ∧ decayRate h "CH4" 1700 2001 = .ok q ∧
    1 / q < 12 := by
  obtain ⟨q, hq⟩ := exCh4_runs "CONSTANT_12" 1700
  refine ⟨_, q, exCh4_mode _, hq, ?_⟩
  obtain ⟨g, mode, k, h1, h2, h3, -, k2, -, -⟩ := C17_rate hq
  rw [exCh4_gas] at h1
  rw [exCh4_mode] at h2
  simp only [Option.some.injEq] at h1 h2
  subst h1 h2
  rw [h3, k2 rfl]
  norm_num

/-- C17 fails for unknown modes: the documentation says they behave like the Wigley mode, but the
concentration dependence is then missing altogether. -/
theorem C17_unknown_false : ∃ (h h' : Handler ℝ Unit) (q q' : ℝ),
    h.pam.get? "lifetime_mode" = some (.str "other") ∧
    h'.pam.get? "lifetime_mode" = some (.str "WIGLEY") ∧
    h' = { h with pam := [("lifetime_mode", .str "WIGLEY")] } ∧
    decayRate h "CH4" 3400 2001 = .ok q ∧ decayRate h' "CH4" 3400 2001 = .ok q' ∧ q' < q := by
  obtain ⟨q, hq⟩ := exCh4_runs "other" 3400
  obtain ⟨q', hq'⟩ := exCh4_runs "WIGLEY" 3400
  refine ⟨_, _, q, q', exCh4_mode _, exCh4_mode _, rfl, hq, hq', ?_⟩
  obtain ⟨g, mode, k, h1, h2, h3, -, -, -, k4⟩ := C17_rate hq
  obtain ⟨g', mode', k', h1', h2', h3', -, -, k3', -⟩ := C17_rate hq'
  rw [exCh4_gas] at h1 h1'
  rw [exCh4_mode] at h2 h2'
  simp only [Option.some.injEq] at h1 h2 h1' h2'
  subst h1 h2 h1' h2'
  rw [h3, h3', k4 (by simp) (by simp) (by simp), k3' rfl]
  have : ((3400 : ℝ) / 1700) ^ (-0.238 : ℝ) < 1 :=
    Real.rpow_lt_one_of_one_lt_of_neg (by norm_num) (by norm_num)
  simp only
  linarith

/-- C17, unknown modes, the part that holds: the loss rate is that of the table, the same for all
concentrations and years. -/
theorem C17_unknown_partial {κ : Type} {h : Handler ℝ κ} {c : ℝ} {yr : ℤ} {q : ℝ} {mode : PyVal ℝ}
    (hm : h.pam.get? "lifetime_mode" = some mode) (n1 : mode ≠ .str "TAR")
    (n2 : mode ≠ .str "CONSTANT_12") (n3 : mode ≠ .str "WIGLEY")
    (e : decayRate h "CH4" c yr = .ok q) :
    ∃ g, h.gas.get? "CH4" = some g ∧ q = 1 / g.tau1 + 1 / g.tau2 + 1 / g.tau3 := by
  obtain ⟨g, mode', k, h1, h2, h3, -, -, -, k4⟩ := C17_rate e
  rw [hm] at h2
  obtain rfl : mode = mode' := by simpa using h2
  exact ⟨g, h1, by rw [h3, k4 n1 n2 n3]⟩

end Verif.Props
