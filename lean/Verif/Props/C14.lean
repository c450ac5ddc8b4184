import Verif.Lemmas.Decay
import Verif.Lemmas.Precalc

/-!
# C14 — gases computed ahead of the run follow the same yearly update
-/

namespace Verif.Props
open Verif.Py Verif.Model Verif.Model.Handler Verif.Spec

/-- C14 (partial: `emstart` is not the last year of the run, where the code keeps the prescribed value,
see `C14_last_year_false`): the pre-computed concentrations have exactly the run years as rows, and the
series of every gas is the prescribed one before `emstart` and the iterated exact decay solution from
then on, started from the last prescribed value. -/
theorem C14_series_partial {gas : Dict (Gas ℝ)} {concIn emis : Frame ℝ} {pam : Dict (PyVal ℝ)}
    {gases : List String} {rows : List (Row ℝ)} {ns es ne : ℤ}
    (h : precalcConc gas concIn emis pam gases = .ok rows)
    (hrun : pamB pam "conc_run" = .ok false) (hc : Covers concIn emis pam ns es ne)
    (hne : es ≠ ne) :
    rows.map Prod.fst = pyRange ns (ne + 1) ∧
    ∀ c ∈ gases, ∀ g, gas.get? c = some g → g.tau1 ≠ 0 →
      ∃ v : ℤ → ℝ, (∀ y, ns ≤ y → y ≤ ne → rowAt gases rows c y = .ok (v y)) ∧
        DecaySeries (concIn.cell c) (emis.cell c) g.natEm g.beta g.tau1 ns es ne v := by
  have hr := precalcConc_emission h hrun hc hne
  constructor
  · rw [hr, List.map_map]
    conv_rhs => rw [← List.map_id (pyRange ns (ne + 1))]
    rfl
  · intro c hcg g hg htau
    refine ⟨series (gasOr gas) concIn emis es c, ?_, ?_, ?_⟩
    · intro y h1 h2
      rw [hr]
      exact rowAt_map hcg h1 (by omega)
    · intro y h1 h2 h3
      unfold series
      rw [if_pos h2]
    · intro y h1 h2
      rw [series_step _ _ _ _ _ h1, vanillaUpdate_eq]
      have : gasOr gas c = g := by unfold gasOr; rw [hg]; rfl
      rw [this]
      exact concUpdate_after (one_div_ne_zero htau)

/-! ## Consequences of the specification -/

/-- C14: non-negative prescribed values and emissions give non-negative concentrations. -/
theorem C14_nonneg {presc em : ℤ → ℝ} {nat beta tau : ℝ} {ns es ne : ℤ} {v : ℤ → ℝ}
    (hv : DecaySeries presc em nat beta tau ns es ne v) (hns : ns < es) (ht : 0 < tau) (hb : 0 < beta)
    (hp : ∀ y, ns ≤ y → y < es → 0 ≤ presc y) (he : ∀ y, es ≤ y → 0 ≤ em y + nat) :
    ∀ y, ns ≤ y → y ≤ ne → 0 ≤ v y := by
  have key : ∀ n : ℕ, ∀ y, ns ≤ y → y ≤ ne → (y - ns).toNat = n → 0 ≤ v y := by
    intro n
    induction n with
    | zero =>
      intro y h1 h2 h3
      rw [hv.prescribed y h1 (by omega) h2]
      exact hp y h1 (by omega)
    | succ n ih =>
      intro y h1 h2 h3
      by_cases hy : y < es
      · rw [hv.prescribed y h1 hy h2]
        exact hp y h1 hy
      · have hq : 0 < 1 / tau := by positivity
        have := hv.computed y (by omega) h2
        rw [afterOneYear_iff hq.ne'] at this
        have hprev := ih (y - 1) (by omega) (by omega) (by omega)
        have hs : 0 ≤ (em y + nat) / beta / (1 / tau) :=
          div_nonneg (div_nonneg (he y (by omega)) hb.le) hq.le
        have he0 : 0 < Real.exp (-(1 / tau)) := Real.exp_pos _
        have he1 : Real.exp (-(1 / tau)) < 1 := by rw [Real.exp_lt_one_iff]; linarith
        rw [this]
        nlinarith
  intro y h1 h2
  exact key _ y h1 h2 rfl

/-- C14: more emissions in any years never give less concentration in any year. -/
theorem C14_mono {presc em em' : ℤ → ℝ} {nat beta tau : ℝ} {ns es ne : ℤ} {v v' : ℤ → ℝ}
    (hv : DecaySeries presc em nat beta tau ns es ne v)
    (hv' : DecaySeries presc em' nat beta tau ns es ne v') (hns : ns < es) (ht : 0 < tau)
    (hb : 0 < beta) (he : ∀ y, em y ≤ em' y) : ∀ y, ns ≤ y → y ≤ ne → v y ≤ v' y := by
  have key : ∀ n : ℕ, ∀ y, ns ≤ y → y ≤ ne → (y - ns).toNat = n → v y ≤ v' y := by
    intro n
    induction n with
    | zero =>
      intro y h1 h2 h3
      rw [hv.prescribed y h1 (by omega) h2, hv'.prescribed y h1 (by omega) h2]
    | succ n ih =>
      intro y h1 h2 h3
      by_cases hy : y < es
      · rw [hv.prescribed y h1 hy h2, hv'.prescribed y h1 hy h2]
      · have hq : 0 < 1 / tau := by positivity
        have e1 := hv.computed y (by omega) h2
        have e2 := hv'.computed y (by omega) h2
        rw [afterOneYear_iff hq.ne'] at e1 e2
        have hprev := ih (y - 1) (by omega) (by omega) (by omega)
        have hs : (em y + nat) / beta / (1 / tau) ≤ (em' y + nat) / beta / (1 / tau) := by
          have := he y
          gcongr
        have he0 : 0 < Real.exp (-(1 / tau)) := Real.exp_pos _
        have he1 : Real.exp (-(1 / tau)) < 1 := by rw [Real.exp_lt_one_iff]; linarith
        rw [e1, e2]
        nlinarith
  intro y h1 h2
  exact key _ y h1 h2 rfl

/-- C14: the responses to two additions to the emissions add up. -/
theorem C14_additive {presc em d1 d2 : ℤ → ℝ} {nat beta tau : ℝ} {ns es ne : ℤ}
    {v v1 v2 v12 : ℤ → ℝ} (ht : tau ≠ 0) (hns : ns < es)
    (h0 : DecaySeries presc em nat beta tau ns es ne v)
    (h1 : DecaySeries presc (fun y => em y + d1 y) nat beta tau ns es ne v1)
    (h2 : DecaySeries presc (fun y => em y + d2 y) nat beta tau ns es ne v2)
    (h12 : DecaySeries presc (fun y => em y + d1 y + d2 y) nat beta tau ns es ne v12) :
    ∀ y, ns ≤ y → y ≤ ne → v12 y - v y = (v1 y - v y) + (v2 y - v y) := by
  have key : ∀ n : ℕ, ∀ y, ns ≤ y → y ≤ ne → (y - ns).toNat = n →
      v12 y - v y = (v1 y - v y) + (v2 y - v y) := by
    have presc_case : ∀ y, ns ≤ y → y < es → y ≤ ne →
        v12 y - v y = (v1 y - v y) + (v2 y - v y) := by
      intro y a b c
      rw [h0.prescribed y a b c, h1.prescribed y a b c, h2.prescribed y a b c,
        h12.prescribed y a b c]
      ring
    intro n
    induction n with
    | zero => intro y a b c; exact presc_case y a (by omega) b
    | succ n ih =>
      intro y a b c
      by_cases hy : y < es
      · exact presc_case y a hy b
      · have hq := one_div_ne_zero ht
        have e0 := h0.computed y (by omega) b
        have e1 := h1.computed y (by omega) b
        have e2 := h2.computed y (by omega) b
        have e12 := h12.computed y (by omega) b
        rw [afterOneYear_iff hq] at e0 e1 e2 e12
        have hprev := ih (y - 1) (by omega) (by omega) (by omega)
        rw [e0, e1, e2, e12]
        have : v12 (y - 1) = v1 (y - 1) + v2 (y - 1) - v (y - 1) := by linarith
        rw [this]
        ring
  intro y a b
  exact key _ y a b rfl

/-! ## Non-vacuity and the last year -/

/-- A gas with lifetime 10 and conversion factor 2. -/
noncomputable def exX : Gas ℝ := ⟨"ppt", 0, 2, 10, 0, 0, 1, 1⟩

noncomputable def exConcIn : Frame ℝ := ⟨["X"], pyRange 1990 2010, fun _ _ => 7⟩
noncomputable def exEmis : Frame ℝ := ⟨["X"], pyRange 1995 2020, fun _ _ => 4⟩
noncomputable def exPam (es : ℤ) : Dict (PyVal ℝ) :=
  [("conc_run", .bool false), ("nystart", .int 2000), ("nyend", .int 2005), ("emstart", .int es)]

theorem exPam_run (es : ℤ) : pamB (exPam es) "conc_run" = .ok false := by
  simp [pamB, exPam, Dict.getE, Dict.get?, truthy, bind_ok, pure_ok]

theorem exCovers (es : ℤ) (h1 : 2000 < es) (h2 : es ≤ 2005) :
    Covers exConcIn exEmis (exPam es) 2000 es 2005 where
  nystart := by simp [pamI, exPam, Dict.getE, Dict.get?, PyVal.toI, bind_ok]
  nyend := by simp [pamI, exPam, Dict.getE, Dict.get?, PyVal.toI, bind_ok]
  emstart := by simp [pamI, exPam, Dict.getE, Dict.get?, PyVal.toI, bind_ok]
  concIdx := ⟨1990, 2010, rfl, by omega, by omega⟩
  emisIdx := ⟨1995, 2020, rfl, by omega, by omega⟩
  order := h1
  nonempty := by omega

theorem precalc_total {gas : Dict (Gas ℝ)} {concIn emis : Frame ℝ} {pam : Dict (PyVal ℝ)}
    {gases : List String} {ns es ne : ℤ} (hrun : pamB pam "conc_run" = .ok false)
    (hc : Covers concIn emis pam ns es ne)
    (h1 : gases.all (fun c => c ∈ concIn.cols) = true)
    (h2 : gases.all (fun c => c ∈ emis.cols) = true) :
    ∃ rows, precalcConc gas concIn emis pam gases = .ok rows := by
  obtain ⟨a1, a2, a3, ⟨i, j, hi, hins, hj⟩, ⟨k, l, hk, hkes, hl⟩, ho, hn⟩ := hc
  unfold precalcConc hasCols
  rw [if_pos h1, bind_ok, hrun, bind_ok, a1, bind_ok, a2, bind_ok, a3, bind_ok]
  by_cases hle : ne ≤ es
  · rw [if_pos (Or.inr hle), ilocYears_of hi (by omega) hins (by omega)]
    exact ⟨_, rfl⟩
  · rw [if_neg (by simpa using hle), ilocYears_of hi (by omega) hins (by omega), bind_ok, if_pos h2,
      bind_ok, ilocYears_of hk (by omega) hkes (by omega), bind_ok]
    rw [pyRange_cons (by omega), List.map_cons]
    unfold vanillaAppend
    split
    · exact ⟨_, rfl⟩
    · rename_i hnone _
      rw [List.getLast?_eq_none_iff] at hnone
      simp at hnone
    · exact ⟨_, rfl⟩

example : ∃ rows, precalcConc [("X", exX)] exConcIn exEmis (exPam 2003) ["X"] = .ok rows :=
  precalc_total (exPam_run _) (exCovers 2003 (by omega) (by omega)) (by simp [exConcIn])
    (by simp [exEmis])

/-- C14 as stated fails when emissions start in the last year of the run: the code then keeps the
prescribed concentration of that year instead of computing it from emissions. -/
theorem C14_last_year_false : ¬ ∀ (gas : Dict (Gas ℝ)) (concIn emis : Frame ℝ)
    (pam : Dict (PyVal ℝ)) (gases : List String) (rows : List (Row ℝ)) (ns es ne : ℤ),
    precalcConc gas concIn emis pam gases = .ok rows → pamB pam "conc_run" = .ok false →
    Covers concIn emis pam ns es ne →
    ∀ c ∈ gases, ∀ g, gas.get? c = some g → g.tau1 ≠ 0 →
      ∃ v : ℤ → ℝ, (∀ y, ns ≤ y → y ≤ ne → rowAt gases rows c y = .ok (v y)) ∧
        DecaySeries (concIn.cell c) (emis.cell c) g.natEm g.beta g.tau1 ns es ne v := by
  intro hall
  have hcov := exCovers 2005 (by omega) (by omega)
  have hrows : precalcConc [("X", exX)] exConcIn exEmis (exPam 2005) ["X"] =
      .ok ((pyRange 2000 2006).map (fun y => (y, fun c => exConcIn.cell c y))) := by
    unfold precalcConc hasCols
    rw [if_pos (by simp [exConcIn]), bind_ok, exPam_run, bind_ok, hcov.nystart, bind_ok, hcov.nyend,
      bind_ok, hcov.emstart, bind_ok, if_pos (Or.inr (by omega)),
      ilocYears_of (i := 1990) (j := 2010) rfl (by omega) (by omega) (by omega)]
    norm_num
  obtain ⟨v, h1, h2⟩ := hall _ _ _ _ _ _ 2000 2005 2005 hrows (exPam_run _) hcov "X" (by simp) exX
    (by simp [Dict.get?]) (by norm_num [exX])
  have e4 := h1 2004 (by omega) (by omega)
  have e5 := h1 2005 (by omega) (by omega)
  rw [rowAt_map (v := exConcIn.cell) (by simp) (by omega) (by omega), Except.ok.injEq] at e4 e5
  have := h2.computed 2005 (by omega) (by omega)
  rw [afterOneYear_iff (by norm_num [exX])] at this
  rw [show (2005 : ℤ) - 1 = 2004 by norm_num, ← e4, ← e5] at this
  have e : (7 : ℝ) = (4 + 1) / 2 / (1 / 10) + (7 - (4 + 1) / 2 / (1 / 10)) *
      Real.exp (-(1 / 10)) := this
  have he1 : Real.exp (-(1 / 10)) < 1 := by rw [Real.exp_lt_one_iff]; norm_num
  nlinarith

end Verif.Props
