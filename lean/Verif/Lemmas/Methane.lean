import Verif.Spec.MoreMethane
import Verif.Lemmas.Co2
import Verif.Props.C98

/-!
# Concentration-driven runs that differ in methane
-/

namespace Verif.Lemmas.Methane
open Verif.Py Verif.Py.Dict Verif.Model Verif.Model.Handler Verif.Model.Driver Verif.Spec Verif.Props
open Verif.Lemmas.OneGas (halogen_keys)
open Verif.Lemmas.Co2 (prec_same)

variable {κ τ τ' : Type}

/-! ## The formulas -/

/-- More methane gives more forcing, by at least 0.02 W/m² per unit of the square root. -/
theorem ch4_slope {m m' m0 n n0 : ℝ} (hm : 0 ≤ m) (hm0 : 0 ≤ m0) (hlt : m ≤ m') (hM' : m' ≤ 5000) (hM0 : m0 ≤ 5000)
    (hn : n ≤ 1000) (hn0 : n0 ≤ 1000) :
    0.02 * (Real.sqrt m' - Real.sqrt m) ≤ ch4Forcing m' m0 n n0 - ch4Forcing m m0 n n0 := by
  unfold ch4Forcing
  have hs := Real.sqrt_le_sqrt hlt
  have h1 := Real.sqrt_nonneg m
  have h3 := Real.sqrt_nonneg m0
  have e1 := Real.sq_sqrt hm
  have e2 := Real.sq_sqrt (hm.trans hlt)
  have e3 := Real.sq_sqrt hm0
  generalize Real.sqrt m = s at *
  generalize Real.sqrt m' = s' at *
  generalize Real.sqrt m0 = t at *
  rw [← e1, ← e2, ← e3]
  rw [← e2] at hM'
  rw [← e3] at hM0
  have key : (0.043 - 0.0000013 * ((s' ^ 2 + t ^ 2) / 2) - 0.0000082 * ((n + n0) / 2)) * (s' - t)
      - (0.043 - 0.0000013 * ((s ^ 2 + t ^ 2) / 2) - 0.0000082 * ((n + n0) / 2)) * (s - t) =
      (s' - s) * (0.043 - 0.0000082 * ((n + n0) / 2) - 0.00000065 * (s' ^ 2 + s' * s + s ^ 2 + t ^ 2 - t * (s' + s))) := by
    ring
  rw [key]
  have hq : s' ^ 2 + s' * s + s ^ 2 + t ^ 2 - t * (s' + s) ≤ 15000 := by
    nlinarith [mul_nonneg h1 (sub_nonneg.2 hs), mul_nonneg h3 h1, mul_nonneg h3 (h1.trans hs), sq_nonneg (t - s')]
  nlinarith [mul_nonneg (sub_nonneg.2 hs) (show (0 : ℝ) ≤ 0.043 - 0.0000082 * ((n + n0) / 2)
    - 0.00000065 * (s' ^ 2 + s' * s + s ^ 2 + t ^ 2 - t * (s' + s)) - 0.02 by linarith)]

section
variable {t t' : String → ℤ → ℝ} {ns ne y : ℤ} {sm sn : ℝ}

theorem methane_nonneg (hm : MoreMethane t t' ns ne) (ho : ∀ c, c ≠ "CH4" → ∀ y, t' c y = t c y) (hs : 0 ≤ sm)
    (h1 : ns ≤ y) (h2 : y ≤ ne) : 0 ≤ methaneEffect sm t t' ns y := by
  have hne := h1.trans h2
  unfold methaneEffect
  rw [hm.start, ho "N2O" (by decide), ho "N2O" (by decide)]
  have a := ch4_slope (hm.pos y h1 h2).le (hm.pos ns le_rfl hne).le (hm.more y h1 h2) (hm.top y h1 h2)
    (by rw [← hm.start]; exact hm.top ns le_rfl hne) (hm.n2o y h1 h2).2 (hm.n2o ns le_rfl hne).2
  have b := Real.sqrt_le_sqrt (hm.more y h1 h2)
  have := mul_nonneg hs (show 0 ≤ ch4Forcing (t' "CH4" y) (t "CH4" ns) (t "N2O" y) (t "N2O" ns) -
    ch4Forcing (t "CH4" y) (t "CH4" ns) (t "N2O" y) (t "N2O" ns) by linarith)
  linarith

/-- More methane never gives less forcing of methane and N2O together. -/
theorem more_methane (hm : MoreMethane t t' ns ne) (ho : ∀ c, c ≠ "CH4" → ∀ y, t' c y = t c y)
    (hsn : 0 ≤ sn) (hsm : sn ≤ 1.5 * sm) (h1 : ns ≤ y) (h2 : y ≤ ne) :
    0 ≤ methaneEffect sm t t' ns y + overlapEffect sn t t' ns y := by
  have hne := h1.trans h2
  unfold methaneEffect overlapEffect
  rw [hm.start, ho "N2O" (by decide), ho "N2O" (by decide), ho "CO2" (by decide), ho "CO2" (by decide)]
  have a := ch4_slope (hm.pos y h1 h2).le (hm.pos ns le_rfl hne).le (hm.more y h1 h2) (hm.top y h1 h2)
    (by rw [← hm.start]; exact hm.top ns le_rfl hne) (hm.n2o y h1 h2).2 (hm.n2o ns le_rfl hne).2
  have b := Real.sqrt_le_sqrt (hm.more y h1 h2)
  have hmp := (hm.pos y h1 h2).le
  have hmm := hm.more y h1 h2
  have htop := hm.top y h1 h2
  have e1 := Real.sq_sqrt hmp
  have e2 := Real.sq_sqrt (hmp.trans hmm)
  have hsq : Real.sqrt (t "N2O" y) ≤ 32 := by
    rw [show (32 : ℝ) = Real.sqrt 1024 by rw [show (1024 : ℝ) = 32 ^ 2 by norm_num, Real.sqrt_sq (by norm_num)]]
    exact Real.sqrt_le_sqrt (by linarith [(hm.n2o y h1 h2).2])
  have hsq0 := Real.sqrt_nonneg (t "N2O" ns)
  have hs72 : Real.sqrt (t' "CH4" y) ≤ 71 := by
    rw [show (71 : ℝ) = Real.sqrt 5041 by rw [show (5041 : ℝ) = 71 ^ 2 by norm_num, Real.sqrt_sq (by norm_num)]]
    exact Real.sqrt_le_sqrt (by linarith)
  have hs0 := Real.sqrt_nonneg (t "CH4" y)
  generalize Real.sqrt (t "CH4" y) = s at *
  generalize Real.sqrt (t' "CH4" y) = s' at *
  have hd : t' "CH4" y - t "CH4" y ≤ 142 * (s' - s) := by
    rw [← e1, ← e2]
    nlinarith
  have f : -(0.0112 * (s' - s)) ≤
      n2oForcing (t "N2O" y) (t "N2O" ns) (t "CO2" y) (t "CO2" ns) (t' "CH4" y) (t "CH4" ns) -
        n2oForcing (t "N2O" y) (t "N2O" ns) (t "CO2" y) (t "CO2" ns) (t "CH4" y) (t "CH4" ns) := by
    unfold n2oForcing
    generalize Real.sqrt (t "N2O" y) = p at *
    generalize Real.sqrt (t "N2O" ns) = q at *
    nlinarith [mul_nonneg (sub_nonneg.2 hmm) (show (0 : ℝ) ≤ 32 - (p - q) by linarith)]
  generalize ch4Forcing (t' "CH4" y) (t "CH4" ns) (t "N2O" y) (t "N2O" ns) = A at *
  generalize ch4Forcing (t "CH4" y) (t "CH4" ns) (t "N2O" y) (t "N2O" ns) = B at *
  generalize n2oForcing (t "N2O" y) (t "N2O" ns) (t "CO2" y) (t "CO2" ns) (t' "CH4" y) (t "CH4" ns) = C at *
  generalize n2oForcing (t "N2O" y) (t "N2O" ns) (t "CO2" y) (t "CO2" ns) (t "CH4" y) (t "CH4" ns) = D at *
  have hsm0 : 0 ≤ sm := by linarith
  have hss : 0 ≤ s' - s := by linarith
  have f1 := mul_le_mul_of_nonneg_left a hsm0
  have f2 := mul_le_mul_of_nonneg_left f hsn
  have f3 := mul_le_mul_of_nonneg_right hsm hss
  nlinarith [mul_nonneg hsm0 hss]

theorem ozone_nonneg {so qo o0 : ℝ} (hm : MoreMethane t t' ns ne) (hs : 0 ≤ so) (hq : 0 ≤ qo) (ho : o0 ≤ 30)
    (h1 : ns ≤ y) (h2 : y ≤ ne) : 0 ≤ ozoneEffect so qo o0 t t' y := by
  unfold ozoneEffect
  split
  · exact le_rfl
  · have := Real.log_le_log (hm.pos y h1 h2) (hm.more y h1 h2)
    have h6 : (0 : ℝ) ≤ 6.7 := by norm_num
    exact mul_nonneg hs (mul_nonneg hq (div_nonneg (mul_nonneg h6 (by linarith)) (by linarith)))

end

/-! ## Parameters of two histories -/

theorem run_pam {cops cops' : CarbonOps ℝ κ} {tops : ThermalOps ℝ τ} {tops' : ThermalOps ℝ τ'} {d d' d1 d1' : Driver ℝ κ}
    {h h' : Handler ℝ κ} {p : RunPams ℝ} {t : τ} {t' : τ'} (hd : d.source = .handler h) (hd' : d'.source = .handler h')
    (hp : h'.pam = h.pam) (hk : h'.gas.keys = h.gas.keys) (hr : run cops tops d p = .ok (d1, t))
    (hr' : run cops' tops' d' p = .ok (d1', t')) :
    ∃ g g', d1.source = .handler g ∧ d1'.source = .handler g' ∧ g'.pam = g.pam ∧ g'.gas.keys = g.gas.keys := by
  obtain ⟨a, g, e, hg, s, k, -⟩ := run_handler_spec hd hr
  obtain ⟨a', g', e', hg', s', k', -⟩ := run_handler_spec hd' hr'
  obtain ⟨pam, c, w, -, rfl⟩ := reset_spec e
  obtain ⟨pam', c', w', -, rfl⟩ := reset_spec e'
  rw [hp, w, Except.ok.injEq] at w'
  subst w'
  refine ⟨g, g', hg, hg', ?_, ?_⟩
  · rw [s.pam, s'.pam]
    show avoidRegionalDoubleCounting h'.gas.keys pam = avoidRegionalDoubleCounting h.gas.keys pam
    rw [hk]
  · rw [k, k']
    exact hk

theorem after_pam {cops cops' : CarbonOps ℝ κ} {tops : ThermalOps ℝ τ} {tops' : ThermalOps ℝ τ'} {d0 d0' : Driver ℝ κ}
    {h0 h0' : Handler ℝ κ} (hd0 : d0.source = .handler h0) (hd0' : d0'.source = .handler h0')
    (hp : h0'.pam = h0.pam) (hk : h0'.gas.keys = h0.gas.keys) : ∀ {ps : List (RunPams ℝ)} {d d' : Driver ℝ κ},
    After cops tops d0 ps d → After cops' tops' d0' ps d' →
    ∃ h h', d.source = .handler h ∧ d'.source = .handler h' ∧ h'.pam = h.pam ∧ h'.gas.keys = h.gas.keys := by
  intro ps
  induction ps using List.reverseRecOn with
  | nil =>
    intro d d' a a'
    rw [after_nil a, after_nil a']
    exact ⟨h0, h0', hd0, hd0', hp, hk⟩
  | append_singleton ps q ih =>
    intro d d' a a'
    obtain ⟨m, t, b, e⟩ := after_snoc a
    obtain ⟨m', t', b', e'⟩ := after_snoc a'
    obtain ⟨h, h', s, s', z1, z2⟩ := ih b b'
    exact run_pam s s' z1 z2 e e'

/-! ## The reported concentrations as a function -/

noncomputable def concVal (g : Handler ℝ κ) (k : String) (z : ℤ) : ℝ :=
  (((reportConc g).lookup k).bind (fun f => f z)).getD 0

theorem lookup_col : ∀ {l : List (String × (ℤ → Option ℝ))} {c : String × (ℤ → Option ℝ)}, (l.map Prod.fst).Nodup → c ∈ l →
    l.lookup c.1 = some c.2
  | x :: l, c, hnd, hm => by
    rw [List.map_cons, List.nodup_cons] at hnd
    rcases List.mem_cons.1 hm with rfl | hm'
    · obtain ⟨c1, c2⟩ := c
      simp
    · obtain ⟨x1, x2⟩ := x
      have : c.1 ≠ x1 := fun e => hnd.1 (List.mem_map.2 ⟨c, hm', e⟩)
      have hb : (c.1 == x1) = false := by simpa using this
      rw [List.lookup_cons, hb]
      exact lookup_col hnd.2 hm'

theorem lookup_absent : ∀ {l : List (String × (ℤ → Option ℝ))} {k : String}, k ∉ l.map Prod.fst → l.lookup k = none
  | [], _, _ => rfl
  | x :: l, k, h => by
    rw [List.map_cons, List.mem_cons, not_or] at h
    obtain ⟨x1, x2⟩ := x
    have hb : (k == x1) = false := by simpa using h.1
    rw [List.lookup_cons, hb]
    exact lookup_absent h.2

theorem report_names (g : Handler ℝ κ) :
    (reportConc g).map Prod.fst = g.gas.keys.filter (fun k => k ∈ g.concKeys ∨ k ∈ g.prec.gases) := by
  unfold reportConc
  rw [List.map_map]
  have : (Prod.fst ∘ fun k : String => (k, fun y : ℤ => if y ∈ g.years then
      if k ∈ g.concKeys then g.conc k y else (g.prec.conc.lookup y).map (fun r => r k) else none)) = id := rfl
  rw [this, List.map_id]

theorem concVal_col {g : Handler ℝ κ} (hn : g.gas.keys.Nodup) {c : String × (ℤ → Option ℝ)} (hc : c ∈ reportConc g) {z : ℤ}
    {v : ℝ} (hv : c.2 z = some v) : concVal g c.1 z = v := by
  unfold concVal
  rw [lookup_col (by rw [report_names]; exact hn.filter _) hc, Option.bind_some, hv]
  rfl

end Verif.Lemmas.Methane
