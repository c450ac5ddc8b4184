import Verif.Spec.Emissions
import Verif.Props.C12
import Verif.Props.C14_run
import Verif.Props.C13_run
import Mathlib.Analysis.Convex.SpecificFunctions.Basic

/-!
# Lemmas for C97
-/

namespace Verif.Props
open Verif.Py Verif.Py.Dict Verif.Model Verif.Model.Handler Verif.Model.Driver Verif.Spec

/-- Emissions and natural emissions of a gas in a year: methane and N2O have tables of natural emissions, the other gases a
number in the gas table. -/
noncomputable def totalEmis (i : Inputs ℝ) (k : String) (y : ℤ) : ℝ :=
  usedEmis i k y + (if k = "CH4" then i.natCh4.cell "CH4" y else if k = "N2O" then i.natN2o.cell "N2O" y
    else ((i.gas.get? k).map Gas.natEm).getD 0)

section
variable {κ τ κ' τ' : Type} {cops : CarbonOps ℝ κ} {tops : ThermalOps ℝ τ} {cops' : CarbonOps ℝ κ'} {tops' : ThermalOps ℝ τ'}
  {i i' : Inputs ℝ} {pamset pamset' : Option (Dict (PyVal ℝ))} {ps ps' : List (RunPams ℝ)} {p p' : RunPams ℝ}
  {luc luc' : List ℝ} {ns es ne : ℤ} {g : Handler ℝ κ} {g' : Handler ℝ κ'}

theorem lookup_of_mem {α : Type} {l : List (String × α)} {c : String × α} (hn : (l.map Prod.fst).Nodup) (hm : c ∈ l) :
    l.lookup c.1 = some c.2 := by
  induction l with
  | nil => cases hm
  | cons x l ih =>
    rw [List.map_cons, List.nodup_cons] at hn
    rcases List.mem_cons.1 hm with rfl | hm'
    · obtain ⟨c1, c2⟩ := c
      simp
    · obtain ⟨x1, x2⟩ := x
      have : c.1 ≠ x1 := fun e => hn.1 (List.mem_map.2 ⟨c, hm', e⟩)
      have hb : (c.1 == x1) = false := by simpa using this
      rw [List.lookup_cons, hb]
      exact ih hn.2 hm'

theorem reportConc_fst (g : Handler ℝ κ) (hn : g.gas.keys.Nodup) : ((reportConc g).map Prod.fst).Nodup := by
  unfold reportConc
  rw [List.map_map]
  have : (Prod.fst ∘ fun k : String => (k, fun y : ℤ => if y ∈ g.years then
      if k ∈ g.concKeys then g.conc k y else (g.prec.conc.lookup y).map (fun r => r k) else none)) = id := rfl
  rw [this, List.map_id]
  exact hn.filter _

theorem ran_keys (R : Ran cops tops i pamset ps p luc ns es ne g) : g.gas.keys = i.gas.keys := by
  obtain ⟨hg, he, ht, hp, carb, h0, d0, d, d1, t, hc, hd0, -, rfl, rfl, ha, hr, hs⟩ := R
  obtain ⟨emis, a, b, c, fb, luc, sun, r, Y, hluc, -⟩ := run_year yearLaw_real ht hc hd0 ha hr hs le_rfl ht.nonempty
  exact Y.keysG

theorem concOf_mem (R : Ran cops tops i pamset ps p luc ns es ne g) {c : String × (ℤ → Option ℝ)} (hm : c ∈ reportConc g)
    (y : ℤ) : concOf g c.1 y = c.2 y := by
  unfold concOf
  rw [lookup_of_mem (reportConc_fst g (by rw [ran_keys R]; exact R.gases.once)) hm]
  rfl

/-- The series of a gas that reacts to its own emissions only. -/
theorem own_series (R : Ran cops tops i pamset ps p luc ns es ne g) (hne : es < ne) {k : String} {x : Gas ℝ}
    (hx : i.gas.get? k = some x) (hu : x.concUnit ≠ "-") (hk : k ≠ "CO2") (hk4 : k ≠ "CH4") (ht1 : x.tau1 ≠ 0) :
    ∃ v : ℤ → ℝ, (∀ y, ns ≤ y → y ≤ ne → concOf g k y = some (v y)) ∧
      DecaySeries (i.concIn.cell k) (totalEmis i k) 0 x.beta x.tau1 ns es ne v := by
  have R' := R
  obtain ⟨hg, he, ht, hp, carb, h0, d0, d, d1, t, hc, hd0, -, rfl, rfl, ha, hr, hs⟩ := R
  by_cases hn : k = "N2O"
  · subst hn
    have hin : "N2O" ∈ i.concIn.cols := hp _ ⟨x, hx, hu⟩
    obtain ⟨emis, a, b, c, fb, luc, sun, r, Y, hluc, -⟩ := run_year yearLaw_real ht hc hd0 ha hr hs le_rfl ht.nonempty
    have step : ∀ y, es ≤ y → y ≤ d0.nyend → ∃ c0 c1, concOf g "N2O" (y - 1) = some c0 ∧ concOf g "N2O" y = some c1 ∧
        AfterOneYear ((totalEmis i "N2O" y + 0) / x.beta) (1 / x.tau1) c0 c1 := by
      intro y h1 h2
      obtain ⟨c, hm, c0, c1, q, e1, e2, e3, e4, -, e6⟩ := run_update hg.once ht hc hd0 ha hr hs he h1 h2 (Or.inr rfl) hx hu
      refine ⟨c0, c1, ?_, ?_, ?_⟩
      · rw [← e1, concOf_mem R' hm, e2]
      · rw [← e1, concOf_mem R' hm, e3]
      · rw [e6, add_zero, e4 rfl]
        exact concUpdate_after (one_div_ne_zero ht1)
    have hrep : ∃ c ∈ reportConc g, c.1 = "N2O" := by
      obtain ⟨c, hm, c0, c1, q, e1, -⟩ := run_update hg.once ht hc hd0 ha hr hs he hne.le le_rfl (Or.inr rfl) hx hu
      exact ⟨c, hm, e1⟩
    obtain ⟨c, hm, hck⟩ := hrep
    have before : ∀ y, d0.nystart ≤ y → y < es → y ≤ d0.nyend → concOf g "N2O" y = some (i.concIn.cell "N2O" y) := by
      intro y h1 h2 h3
      have := C12_before_emstart yearLaw_real ht hc hd0 ha hr hs c hm (by rw [hck]; decide) (by rw [hck]; decide)
        (by rw [hck]; exact hin) y h1 h3 h2
      rw [hck] at this
      rw [← this, ← hck, concOf_mem R' hm]
    have hv : ∀ y, d0.nystart ≤ y → y ≤ d0.nyend → concOf g "N2O" y = some ((concOf g "N2O" y).getD 0) := by
      intro y h1 h2
      by_cases hy : y < es
      · rw [before y h1 hy h2]; rfl
      · obtain ⟨c0, c1, -, e, -⟩ := step y (by omega) h2
        rw [e]; rfl
    refine ⟨fun y => (concOf g "N2O" y).getD 0, hv, ?_, ?_⟩
    · intro y h1 h2 h3
      rw [before y h1 h2 h3]; rfl
    · intro y h1 h2
      obtain ⟨c0, c1, e0, e1, e2⟩ := step y h1 h2
      rw [e0, e1]
      exact e2
  · obtain ⟨c, hm, hck, v, hv, hs'⟩ := C14_run_partial hg.once ht hc hd0 ha hr hs he hne.ne ⟨x, hx, hu, hk, hk4, hn⟩ hx ht1
    refine ⟨v, fun y h1 h2 => by rw [← hck, concOf_mem R' hm, hv y h1 h2], hs'.1, ?_⟩
    intro y h1 h2
    have := hs'.2 y h1 h2
    have e : totalEmis i k y + 0 = usedEmis i k y + x.natEm := by
      unfold totalEmis
      rw [if_neg hk4, if_neg hn, hx, add_zero]
      rfl
    rw [e]
    exact this

/-- What a run ends with: the emission table after perturbation, the gas table, the years. -/
theorem ran_final (R : Ran cops tops i pamset ps p luc ns es ne g) : ∃ emis, perturbedEmis i = .ok emis ∧ g.emis = emis ∧
    (∀ t, (g.gas.get? t).map (canon t) = (i.gas.get? t).map (canon t)) ∧ g.pert = i.pertForc := by
  obtain ⟨hg, he, ht, hp, carb, h0, d0, d, d1, t, hc, hd0, -, rfl, rfl, ha, hr, hs⟩ := R
  obtain ⟨emis, a, b, c, fb, luc, sun, r, Y, hluc, -⟩ := run_year yearLaw_real ht hc hd0 ha hr hs le_rfl ht.nonempty
  have S := (Y.sameB.trans Y.sameC).trans Y.sameG
  refine ⟨emis, Y.emisE, by rw [S.emis, Y.emis], ?_, by rw [S.pert, Y.pert]⟩
  intro t
  rw [← Y.gas t]
  exact S.gas_canon t

/-- The loss rate of methane in a run. -/
theorem ran_rate (R : Ran cops tops i pamset ps p luc ns es ne g) {x : Gas ℝ} (hx : i.gas.get? "CH4" = some x) {c q : ℝ} {y : ℤ}
    (e : decayRate g "CH4" c y = .ok q) :
    ∃ mode, g.pam.get? "lifetime_mode" = some mode ∧ q = methaneRate mode x (usedEmis i) c y := by
  obtain ⟨emis, he, hge, hgg, -⟩ := ran_final R
  obtain ⟨z, mode, k, hz, hm, hq, h1, h2, h3, h4⟩ := C17_rate e
  obtain ⟨hcols, hix, hcel⟩ := perturbedEmis_spec he
  have at_cell : ∀ t w v, g.emis.at' t w = .ok v → v = usedEmis i t w := by
    intro t w v hv
    rw [hge] at hv
    obtain ⟨a1, a2, a3⟩ := frame_at'_eq_ok.1 hv
    rw [hix] at a2
    rw [← a3, hcel t w a2]
  have hzx : z.tau1 = x.tau1 ∧ z.tau2 = x.tau2 ∧ z.tau3 = x.tau3 := by
    have := hgg "CH4"
    rw [hz, hx, Option.map_some, Option.map_some, Option.some.injEq] at this
    unfold canon at this
    rw [if_pos (Or.inl rfl), if_pos (Or.inl rfl)] at this
    rcases z with ⟨a1, a2, a3, a4, a5, a6, a7, a8⟩
    rcases x with ⟨b1, b2, b3, b4, b5, b6, b7, b8⟩
    simp only [Gas.mk.injEq] at this ⊢
    exact ⟨this.2.2.2.1, this.2.2.2.2.1, this.2.2.2.2.2.1⟩
  obtain ⟨t1, t2, t3⟩ := hzx
  refine ⟨mode, hm, ?_⟩
  unfold methaneRate
  rw [hq, t2, t3]
  congr 2
  by_cases m1 : mode = .str "TAR"
  · rw [if_pos m1]
    obtain ⟨s, ⟨nox, nox0, co, co0, voc, voc0, n1, n2, n3, n4, n5, n6, hs⟩, hk⟩ := h1 m1
    rw [hk, hs, t1, at_cell _ _ _ n1, at_cell _ _ _ n2, at_cell _ _ _ n3, at_cell _ _ _ n4, at_cell _ _ _ n5,
      at_cell _ _ _ n6]
    rfl
  · rw [if_neg m1]
    by_cases m2 : mode = .str "CONSTANT_12"
    · rw [if_pos m2, h2 m2]
    · rw [if_neg m2]
      by_cases m3 : mode = .str "WIGLEY"
      · rw [if_pos m3, h3 m3, t1]
      · rw [if_neg m3, h4 m1 m2 m3, t1]

/-- The series of methane. -/
theorem methane_series (R : Ran cops tops i pamset ps p luc ns es ne g) (hne : es ≤ ne) {x : Gas ℝ}
    (hx : i.gas.get? "CH4" = some x) (hu : x.concUnit ≠ "-") :
    ∃ v : ℤ → ℝ, (∀ y, ns ≤ y → y ≤ ne → concOf g "CH4" y = some (v y)) ∧
      (∀ y, ns ≤ y → y < es → y ≤ ne → v y = i.concIn.cell "CH4" y) ∧
      ∀ y, es ≤ y → y ≤ ne → ∃ mode, g.pam.get? "lifetime_mode" = some mode ∧
        v y = concUpdate x.beta (totalEmis i "CH4" y) (methaneRate mode x (usedEmis i) (v (y - 1)) y) (v (y - 1)) := by
  have R' := R
  obtain ⟨hg, he, ht, hp, carb, h0, d0, d, d1, t, hc, hd0, -, rfl, rfl, ha, hr, hs⟩ := R
  have hin : "CH4" ∈ i.concIn.cols := hp _ ⟨x, hx, hu⟩
  have step : ∀ y, es ≤ y → y ≤ d0.nyend → ∃ c0 c1 mode, concOf g "CH4" (y - 1) = some c0 ∧ concOf g "CH4" y = some c1 ∧
      g.pam.get? "lifetime_mode" = some mode ∧
      c1 = concUpdate x.beta (totalEmis i "CH4" y) (methaneRate mode x (usedEmis i) c0 y) c0 := by
    intro y h1 h2
    obtain ⟨c, hm, c0, c1, q, e1, e2, e3, -, e5, e6⟩ := run_update hg.once ht hc hd0 ha hr hs he h1 h2 (Or.inl rfl) hx hu
    obtain ⟨mode, hmo, hq⟩ := ran_rate R' hx (e5 rfl)
    refine ⟨c0, c1, mode, ?_, ?_, hmo, ?_⟩
    · rw [← e1, concOf_mem R' hm, e2]
    · rw [← e1, concOf_mem R' hm, e3]
    · rw [← hq]
      exact e6
  obtain ⟨c, hm, -, -, -, hck, -⟩ := run_update hg.once ht hc hd0 ha hr hs he hne le_rfl (Or.inl rfl) hx hu
  have before : ∀ y, d0.nystart ≤ y → y < es → y ≤ d0.nyend → concOf g "CH4" y = some (i.concIn.cell "CH4" y) := by
    intro y h1 h2 h3
    have := C12_before_emstart yearLaw_real ht hc hd0 ha hr hs c hm (by rw [hck]; decide) (by rw [hck]; decide)
      (by rw [hck]; exact hin) y h1 h3 h2
    rw [hck] at this
    rw [← this, ← hck, concOf_mem R' hm]
  refine ⟨fun y => (concOf g "CH4" y).getD 0, ?_, ?_, ?_⟩
  · intro y h1 h2
    simp only
    by_cases hy : y < es
    · rw [before y h1 hy h2]; rfl
    · obtain ⟨c0, c1, mode, -, e, -⟩ := step y (by omega) h2
      rw [e]; rfl
  · intro y h1 h2 h3
    simp only
    rw [before y h1 h2 h3]; rfl
  · intro y h1 h2
    obtain ⟨c0, c1, mode, e0, e1, e2, e3⟩ := step y h1 h2
    refine ⟨mode, e2, ?_⟩
    simp only
    rw [e0, e1]
    exact e3

/-! ### Comparing one year -/

/-- The mean loss over a year falls when the rate grows. -/
theorem one_sub_exp_div {q q' : ℝ} (hq' : 0 < q') (hle : q' ≤ q) :
    (1 - Real.exp (-q)) / q ≤ (1 - Real.exp (-q')) / q' := by
  have hq : 0 < q := lt_of_lt_of_le hq' hle
  rw [div_le_div_iff₀ hq hq']
  have := convexOn_exp.2 (Set.mem_univ (-q)) (Set.mem_univ (0 : ℝ)) (div_nonneg hq'.le hq.le)
    (sub_nonneg.2 ((div_le_one hq).2 hle)) (by ring)
  simp only [smul_eq_mul, mul_zero, add_zero, Real.exp_zero, mul_one] at this
  have e : q' / q * -q = -q' := by field_simp
  rw [e] at this
  have h2 := mul_le_mul_of_nonneg_left this hq.le
  have e2 : q * (q' / q * Real.exp (-q) + (1 - q' / q)) = q' * Real.exp (-q) + q - q' := by field_simp; ring
  rw [e2] at h2
  linarith

theorem concUpdate_form {b e q c : ℝ} (h : 0 < q) :
    concUpdate b e q c = c * Real.exp (-q) + e / b * ((1 - Real.exp (-q)) / q) := by
  unfold concUpdate
  simp only [mexp]
  have := h.ne'
  field_simp
  ring

theorem concUpdate_pos {b e q c : ℝ} (hb : 0 < b) (hq : 0 < q) (he : 0 ≤ e) (hc : 0 < c) : 0 < concUpdate b e q c := by
  rw [concUpdate_form hq]
  have h2 : 0 ≤ (1 - Real.exp (-q)) / q := div_nonneg (by
    have := Real.exp_le_one_iff.2 (show -q ≤ 0 by linarith); linarith) hq.le
  have := mul_pos hc (Real.exp_pos (-q))
  have := mul_nonneg (div_nonneg he hb.le) h2
  linarith

/-- A year's update grows with the emissions and the concentration of the year before, and falls with the rate. -/
theorem concUpdate_mono {b e e' q q' c c' : ℝ} (hb : 0 < b) (hq : 0 < q') (hqq : q' ≤ q) (he0 : 0 ≤ e) (he : e ≤ e')
    (hc0 : 0 ≤ c) (hc : c ≤ c') : concUpdate b e q c ≤ concUpdate b e' q' c' := by
  have hq0 : 0 < q := lt_of_lt_of_le hq hqq
  rw [concUpdate_form hq0, concUpdate_form hq]
  have h1 : Real.exp (-q) ≤ Real.exp (-q') := Real.exp_le_exp.2 (by linarith)
  have h2 : 0 ≤ (1 - Real.exp (-q)) / q := div_nonneg (by
    have := Real.exp_le_one_iff.2 (show -q ≤ 0 by linarith); linarith) hq0.le
  have h3 : e / b ≤ e' / b := div_le_div_of_nonneg_right he hb.le
  have h4 : 0 ≤ e / b := div_nonneg he0 hb.le
  exact add_le_add (mul_le_mul hc h1 (Real.exp_pos _).le (hc0.trans hc))
    (mul_le_mul h3 (one_sub_exp_div hq hqq) h2 (h4.trans h3))

/-- More methane is lost more slowly. -/
theorem methaneRate_anti {mode : PyVal ℝ} {x : Gas ℝ} {e : String → ℤ → ℝ} {c c' : ℝ} {y : ℤ} (ht : 0 < x.tau1) (hc : 0 < c)
    (hcc : c ≤ c') : methaneRate mode x e c' y ≤ methaneRate mode x e c y := by
  unfold methaneRate
  have h1 : 0 < 1 / x.tau1 := by positivity
  gcongr ?_ + _ + _
  split
  · apply mul_le_mul_of_nonneg_left _ h1.le
    have := Real.log_le_log hc hcc
    linarith
  · split
    · exact le_rfl
    · split
      · apply mul_le_mul_of_nonneg_left _ h1.le
        exact Real.rpow_le_rpow_of_nonpos (by positivity) (div_le_div_of_nonneg_right hcc (by norm_num)) (by norm_num)
      · exact le_rfl

/-- Without the OH dependence the rate is positive. -/
theorem methaneRate_pos {mode : PyVal ℝ} {x : Gas ℝ} {e : String → ℤ → ℝ} {c : ℝ} {y : ℤ} (hm : mode ≠ .str "TAR")
    (h1 : 0 < x.tau1) (h2 : 0 < x.tau2) (h3 : 0 < x.tau3) (hc : 0 < c) : 0 < methaneRate mode x e c y := by
  unfold methaneRate
  rw [if_neg hm]
  have : 0 < (c / 1700) ^ (-0.238 : ℝ) := Real.rpow_pos_of_pos (by positivity) _
  split
  · positivity
  · split <;> positivity

/-! ### The parameters in effect -/

/-- What a run does to the parameters. -/
noncomputable def pamStep (K : List String) (pam : Dict (PyVal ℝ)) (p : RunPams ℝ) : Except PyErr (Dict (PyVal ℝ)) :=
  (checkPamsetConsistency pam (Factory.checkPamset p.emiconc)).map (avoidRegionalDoubleCounting K)

theorem after_pam {d0 d : Driver ℝ κ} {h0 : Handler ℝ κ} (hd0 : d0.source = .handler h0) (ha : After cops tops d0 ps d) :
    ∃ h, d.source = .handler h ∧ h.gas.keys = h0.gas.keys ∧ ps.foldlM (pamStep h0.gas.keys) h0.pam = .ok h.pam := by
  induction ha with
  | fresh => exact ⟨h0, hd0, rfl, rfl⟩
  | @next ps p d d1 t ha hr ih =>
    obtain ⟨h, hd, hk, hp⟩ := ih
    obtain ⟨g, h1, hre, hs, S, hk1, -⟩ := run_handler_spec hd hr
    obtain ⟨pam, c, h2, -, rfl⟩ := reset_spec hre
    refine ⟨h1, hs, by rw [hk1]; exact hk, ?_⟩
    rw [List.foldlM_append, hp, bind_ok, foldlM_cons_ok]
    refine ⟨h1.pam, ?_, rfl⟩
    unfold pamStep
    rw [h2, S.pam, ← hk]
    rfl

/-- The parameters in effect depend on the gas table and the parameter sets only. -/
theorem ran_pam (R : Ran cops tops i pamset ps p luc ns es ne g) (R' : Ran cops' tops' i' pamset ps p luc' ns es ne g')
    (hg : i'.gas = i.gas) : g'.pam = g.pam := by
  have key : ∀ {κ τ : Type} {cops : CarbonOps ℝ κ} {tops : ThermalOps ℝ τ} {i : Inputs ℝ} {g : Handler ℝ κ} {luc : List ℝ},
      Ran cops tops i pamset ps p luc ns es ne g →
      (ps ++ [p]).foldlM (pamStep i.gas.keys) (avoidRegionalDoubleCounting i.gas.keys
        (Dict.set (Factory.checkPamset pamset) "conc_run" (.bool false))) = .ok g.pam := by
    intro κ τ cops tops i g luc R
    obtain ⟨hg, he, ht, hp, carb, h0, d0, d, d1, t, hc, hd0, -, rfl, rfl, ha, hr, hs⟩ := R
    obtain ⟨h, hd, -, hf⟩ := after_pam hd0 (ha.next hr)
    rw [hs] at hd
    cases hd
    obtain ⟨ns1, ne1, emis, clbr, prec, pre, k0, k, h1, h2, h3, h4, h5, h6, h7, h8, rfl⟩ := construct_spec hc
    rw [he] at hf
    exact hf
  have a := key R
  have b := key R'
  rw [hg, a, Except.ok.injEq] at b
  exact b.symm

/-! ### What a user sees of a run -/

noncomputable def obs (g : Handler ℝ κ) (i : Inputs ℝ) (emis : Frame ℝ) (l : ℝ) (ns y : ℤ) : ForcingData :=
  ⟨fun t z => (concOf g t z).getD 0, fun t z => match emis.at' t z with | .ok v => v | .error _ => 0,
    fun t => ((i.gas.get? t).map Gas.alpha).getD 0, fun t => ((i.gas.get? t).map Gas.sarf).getD 0,
    fun k => match pamF g.pam k with | .ok v => v | .error _ => 0, l, ns, y⟩

theorem obs_observed (R : Ran cops tops i pamset ps p luc ns es ne g) (emis : Frame ℝ) (l : ℝ) (y : ℤ) :
    Observed g i emis l ns y (obs g i emis l ns y) := by
  refine ⟨?_, ?_, ?_, ?_, ?_, rfl, rfl, rfl⟩
  · intro c hc z v hv
    simp only [obs]
    rw [concOf_mem R hc, hv]
    rfl
  · intro t z v hv
    simp only [obs, hv]
  · intro t x hx
    simp [obs, hx]
  · intro t x hx
    simp [obs, hx]
  · intro k v hv
    simp only [obs, hv]

theorem usedEmis_only {K : List String} (ho : OnlyEmissionsOf K i i') {c : String} (hc : c ∉ K) (y : ℤ) :
    usedEmis i' c y = usedEmis i c y := by
  unfold usedEmis
  rw [ho.cell c hc, ho.pertEm, ho.cols]

theorem totalEmis_only {K : List String} (ho : OnlyEmissionsOf K i i') {c : String} (hc : c ∉ K) (y : ℤ) :
    totalEmis i' c y = totalEmis i c y := by
  unfold totalEmis
  rw [usedEmis_only ho hc, ho.natCh4, ho.natN2o, ho.gas]

theorem at_only {K : List String} (ho : OnlyEmissionsOf K i i') {emis emis' : Frame ℝ} (e : perturbedEmis i = .ok emis)
    (e' : perturbedEmis i' = .ok emis') {c : String} (hc : c ∉ K) (y : ℤ) : emis'.at' c y = emis.at' c y := by
  obtain ⟨a1, a2, a3⟩ := perturbedEmis_spec e
  obtain ⟨b1, b2, b3⟩ := perturbedEmis_spec e'
  unfold Frame.at'
  rw [a1, a2, b1, b2, ho.cols, ho.idx]
  by_cases hy : y ∈ i.emis.idx
  · rw [a3 c y hy, b3 c y (by rw [ho.idx]; exact hy), usedEmis_only ho hc]
  · simp [hy]

theorem mem_of_lookup {α : Type} {l : List (String × α)} {k : String} {v : α} (h : l.lookup k = some v) : (k, v) ∈ l := by
  induction l with
  | nil => cases h
  | cons x l ih =>
    obtain ⟨a, b⟩ := x
    rw [List.lookup_cons] at h
    cases hb : (k == a) with
    | true =>
      rw [hb] at h
      simp only [Option.some.injEq] at h
      rw [beq_iff_eq] at hb
      subst hb; subst h
      exact List.mem_cons_self
    | false =>
      rw [hb] at h
      exact List.mem_cons_of_mem _ (ih h)

theorem concOf_some {k : String} {y : ℤ} {v : ℝ} (h : concOf g k y = some v) : ∃ c ∈ reportConc g, c.1 = k ∧ c.2 y = some v := by
  unfold concOf at h
  cases hl : (reportConc g).lookup k with
  | none => rw [hl] at h; cases h
  | some c =>
    rw [hl] at h
    exact ⟨(k, c), mem_of_lookup hl, rfl, h⟩

end

end Verif.Props
