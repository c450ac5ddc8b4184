import Verif.Props.C79

/-!
# C79 for every number of sub-steps

The concentration at the end of a year is a continuous function of the year's emission, as long as it stays positive within
the year. The search therefore closes in on an emission that gives the target.
-/

namespace Verif.Props
open Verif.Py Verif.Model Verif.Model.Carbon Verif.Model.BackCalc

/-- The concentration after `k` sub-steps of a year with the emission `e`. -/
noncomputable def concWithin (p : Pams ℝ) (st : State ℝ) (y : ℕ) (e : ℝ) (fb : Option ℝ) (k : ℕ) : ℝ :=
  ((List.range k).foldl (fun st i => subStep p (fnppFromTemp p (fb.getD 0.0)) e st (y * p.idtm + i))
    { st with solFb := solubilityTempFeedback p (fb.getD 0.0), mlFb := mixedLayerTempFeedback p (fb.getD 0.0) }).xCO2

theorem concWithin_year (p : Pams ℝ) (st : State ℝ) (y : ℕ) (e : ℝ) (fb : Option ℝ) :
    concWithin p st y e fb p.idtm = (co2em2conc p st y e fb).xCO2 := rfl

/-- Every part of the state depends continuously on the emission. -/
structure ContState (S : Set ℝ) (f : ℝ → State ℝ) : Prop where
  yCO2 : ContinuousOn (fun e => (f e).yCO2) S
  xCO2 : ContinuousOn (fun e => (f e).xCO2) S
  sCO2 : ∀ j, ContinuousOn (fun e => (f e).sCO2 j) S
  em : ContinuousOn (fun e => (f e).emCO2_prev) S
  dfnpp : ∀ j, ContinuousOn (fun e => (f e).dfnpp j) S
  ss1 : ContinuousOn (fun e => (f e).ss1) S
  sums : ContinuousOn (fun e => (f e).sums) S
  solFb : ContinuousOn (fun e => (f e).solFb) S
  mlFb : ∃ m, ∀ e, (f e).mlFb = m

theorem cont_fsum {S : Set ℝ} {f : ℝ → ℕ → ℝ} (n : ℕ) (h : ∀ j, ContinuousOn (fun e => f e j) S) :
    ContinuousOn (fun e => fsum ((List.range n).map (f e))) S := by
  simp only [fsum_range]
  exact continuousOn_finsetSum _ (fun j _ => h j)

theorem cont_pco2 : Continuous (pco2Of : ℝ → ℝ) :=
  continuous_iff_continuousAt.2 (fun z => (C25_hasDerivAt z).continuousAt)

theorem cont_step (p : Pams ℝ) (fn : ℝ) {S : Set ℝ} {f : ℝ → State ℝ} (h : ContState S f)
    (hl : ContinuousOn (fun e => Real.log ((f e).xCO2 / p.preindustrial_co2_conc)) S) (it : ℕ) :
    ContState S (fun e => subStep p fn e (f e) it) := by
  have r := fun e => subStep_spec p fn e (f e) it
  have c1 : ∀ j, ContinuousOn (fun e => (subStep p fn e (f e) it).dfnpp j) S := by
    intro j
    simp only [fun e => (r e).dfnpp]
    split_ifs with h0
    · by_cases hj : j = it
      · simp only [upd, hj, if_true, mlog]
        exact continuousOn_const.mul hl
      · simpa only [upd, hj, if_false] using h.dfnpp j
    · exact h.dfnpp j
  have c2 : ContinuousOn (fun e => (subStep p fn e (f e) it).emCO2_prev) S := by
    simp only [fun e => (r e).em]
    refine ContinuousOn.div_const (continuousOn_id.sub ?_) _
    unfold fferSeries
    refine (c1 it).sub (continuousOn_const.mul ?_)
    split_ifs
    · exact cont_fsum _ (fun j => (c1 _).mul continuousOn_const)
    · exact continuousOn_const
  have c3 : ContinuousOn (fun e => (subStep p fn e (f e) it).ss1) S := by
    simp only [fun e => (r e).ss1]
    split_ifs
    · exact (continuousOn_const.mul c2).div_const _
    · exact h.ss1
  have c4 : ContinuousOn (fun e => (subStep p fn e (f e) it).sums) S := by
    simp only [fun e => (r e).sums]
    split_ifs
    · exact continuousOn_const
    · exact (h.sums.add (h.em.div_const _)).sub (h.sCO2 _)
  have c5 : ∀ j, ContinuousOn (fun e => (subStep p fn e (f e) it).sCO2 j) S := by
    intro j
    simp only [fun e => (r e).sCO2]
    by_cases hj : j = it
    · simp only [upd, hj, if_true]
      refine continuousOn_const.mul ((c4.add c3).add ?_)
      split_ifs
      · exact c3
      · exact ((continuousOn_const.mul c2).div_const _).sub (h.yCO2.div_const _)
    · simpa only [upd, hj, if_false] using h.sCO2 j
  have c6 : ContinuousOn (fun e => (subStep p fn e (f e) it).solFb) S := by
    simpa only [fun e => (r e).solFb] using h.solFb
  obtain ⟨m, hm⟩ := h.mlFb
  have c7 : ∀ e, (subStep p fn e (f e) it).mlFb = m := fun e => by rw [(r e).mlFb, hm]
  have c8 : ContinuousOn (fun e => (subStep p fn e (f e) it).yCO2) S := by
    simp only [fun e => (r e).yCO2]
    unfold partialPressure
    refine c6.mul (cont_pco2.comp_continuousOn ?_)
    unfold zCo2
    simp only [c7]
    refine continuousOn_const.mul (ContinuousOn.add ?_ (continuousOn_const.mul (c5 it)))
    split_ifs
    · exact cont_fsum _ (fun j => (c5 _).mul continuousOn_const)
    · exact continuousOn_const
  refine ⟨c8, ?_, c5, c2, c1, c3, c4, c6, m, c7⟩
  simp only [fun e => (r e).xCO2]
  exact (((c5 it).add (continuousOn_const.mul c8)).add (continuousOn_const.mul h.yCO2)).add continuousOn_const

/-- For every number of sub-steps a year, the concentration at the end of a year depends continuously on the emission of that
year, on every set of emissions with which it is positive at the sub-steps before. -/
theorem C79_continuous (p : Pams ℝ) (st : State ℝ) (y : ℕ) (fb : Option ℝ) (S : Set ℝ)
    (hpos : ∀ e ∈ S, ∀ k, 0 < k → k < p.idtm → 0 < concWithin p st y e fb k) :
    ContinuousOn (fun e => (co2em2conc p st y e fb).xCO2) S := by
  set fn := fnppFromTemp p (fb.getD 0.0)
  set s0 : State ℝ := { st with
    solFb := solubilityTempFeedback p (fb.getD 0.0), mlFb := mixedLayerTempFeedback p (fb.getD 0.0) }
  have key : ∀ k ≤ p.idtm, ContState S (fun e =>
      (List.range k).foldl (fun st i => subStep p fn e st (y * p.idtm + i)) s0) := by
    intro k
    induction k with
    | zero =>
      intro _
      exact ⟨continuousOn_const, continuousOn_const, fun _ => continuousOn_const, continuousOn_const, fun _ => continuousOn_const,
        continuousOn_const, continuousOn_const, continuousOn_const, _, fun _ => rfl⟩
    | succ k ih =>
      intro hk
      have c := ih (by omega)
      simp only [List.range_succ, List.foldl_append, List.foldl_cons, List.foldl_nil]
      refine cont_step p fn c ?_ _
      rcases Nat.eq_zero_or_pos k with rfl | h0
      · simp only [List.range_zero, List.foldl_nil]
        exact continuousOn_const
      · by_cases hq : p.preindustrial_co2_conc = 0
        · simp only [hq, div_zero]
          exact continuousOn_const
        · refine ContinuousOn.log (c.xCO2.div_const _) (fun e he => div_ne_zero (ne_of_gt ?_) hq)
          exact hpos e he k h0 (by omega)
  exact (key p.idtm le_rfl).xCO2

/-- The search closes in on an emission that gives the target. -/
theorem bisect_root {S H : Type} (m : CCModel S H ℝ) (hm : Replayable m) (st : S) (y : Nat) (fb : Option ℝ)
    (target rtol : ℝ) (ht : 0 < target)
    (n : Nat) (maxG minG : ℝ) (hle : minG ≤ maxG)
    (hcont : ContinuousOn (fun x => m.conc (m.co2em2conc st y x fb)) (Set.Icc minG maxG))
    (h1 : m.conc (m.co2em2conc st y minG fb) ≤ target) (h2 : target ≤ m.conc (m.co2em2conc st y maxG fb)) (r : Found S ℝ)
    (hmid : r.guess = (minG + maxG) / 2) (hst : r.state = m.co2em2conc st y r.guess fb) :
    let r' := bisectLoop m y fb (m.getHold st) target rtol n maxG minG r
    |target - m.conc r'.state| ≤ rtol * target ∨
      ∃ e ∈ Set.Icc minG maxG, m.conc (m.co2em2conc st y e fb) = target ∧ |r'.guess - e| ≤ (maxG - minG) / 2 ^ (n + 1) := by
  have e2 : (2.0 : ℝ) = 2 := by norm_num
  induction n generalizing maxG minG r with
  | zero =>
    right
    obtain ⟨e, ⟨a, b⟩, he⟩ := intermediate_value_Icc hle hcont ⟨h1, h2⟩
    refine ⟨e, ⟨a, b⟩, he, ?_⟩
    simp only [bisectLoop]
    rw [hmid, abs_le]; constructor <;> linarith
  | succ n ih =>
    have g1 : minG ≤ r.guess := by rw [hmid]; linarith
    have g2 : r.guess ≤ maxG := by rw [hmid]; linarith
    unfold bisectLoop
    split
    · next hnc =>
      have hf : m.conc r.state = m.conc (m.co2em2conc st y r.guess fb) := by rw [hst]
      split
      · next hgt =>
        have := ih r.guess minG g1 (hcont.mono (Set.Icc_subset_Icc_right g2)) h1 (by rw [← hf]; exact hgt.le)
          ⟨(r.guess + minG) / 2.0, m.co2em2conc (m.setHold r.state (m.getHold st)) y
            ((r.guess + minG) / 2.0) fb, r.evals ++ [(r.guess + minG) / 2.0]⟩
          (by dsimp only; rw [e2]; ring) (by dsimp only; rw [hst]; exact hm st y r.guess _ fb)
        rcases this with this | ⟨e, ⟨a, b⟩, he, this⟩
        · exact Or.inl this
        · refine Or.inr ⟨e, ⟨a, b.trans g2⟩, he, le_trans this (le_of_eq ?_)⟩
          rw [hmid]; ring
      · next hgt =>
        have := ih maxG r.guess g2 (hcont.mono (Set.Icc_subset_Icc_left g1)) (by rw [← hf]; exact not_lt.1 hgt) h2
          ⟨(r.guess + maxG) / 2.0, m.co2em2conc (m.setHold r.state (m.getHold st)) y
            ((r.guess + maxG) / 2.0) fb, r.evals ++ [(r.guess + maxG) / 2.0]⟩
          (by dsimp only; rw [e2]) (by dsimp only; rw [hst]; exact hm st y r.guess _ fb)
        rcases this with this | ⟨e, ⟨a, b⟩, he, this⟩
        · exact Or.inl this
        · refine Or.inr ⟨e, ⟨g1.trans a, b⟩, he, le_trans this (le_of_eq ?_)⟩
          rw [hmid]; ring
    · next hnc =>
      left
      simp only [notConverged, decide_eq_true_eq, not_lt, mabs] at hnc
      rwa [div_le_iff₀ ht] at hnc

/-- C79 for every number of sub-steps a year (missing: that the emission is the only one, see `C79_more_emission_false`): back-calculate emissions for a path of
positive concentrations. In every year whose initial search interval reaches from an emission that gives too little to one that
gives too much, with emissions in between that keep the concentration positive within the year, either the returned emissions give
the target to one part in ten million or the returned emission is, up to the width of the interval divided by `2^101`, one that
gives exactly the target. -/
theorem C79_recovered_steps_partial (p : Pams ℝ) (st : State ℝ) (concs : List ℝ) (hc : ∀ c ∈ concs, 0 < c) (dtemp : ℕ → ℝ) :
    let r := backCalculate p st concs dtemp
    let fb := fun i => some (dtemp i)
    ∀ i (h : i < concs.length) (h' : i < r.1.length),
      let s := forward p fb st 0 (r.1.take i)
      let mm := initialMaxMin concs[i] (if i = 0 then p.preindustrial_co2_conc else concs[i - 1])
          (fferSeries p (dfnppOfConc p (fun y => concs.getD y 0.0) dtemp) (i * p.idtm))
      (∀ e, mm.2 ≤ e → e ≤ mm.1 → ∀ k, 0 < k → k < p.idtm → 0 < concWithin p s i e (fb i) k) →
      (co2em2conc p s i mm.2 (fb i)).xCO2 ≤ concs[i] → concs[i] ≤ (co2em2conc p s i mm.1 (fb i)).xCO2 →
      |concs[i] - (forward p fb st 0 (r.1.take (i + 1))).xCO2| ≤ 1e-7 * concs[i] ∨
        ∃ e, mm.2 ≤ e ∧ e ≤ mm.1 ∧ (co2em2conc p s i e (fb i)).xCO2 = concs[i] ∧ |r.1[i] - e| ≤ (mm.1 - mm.2) / 2 ^ 101 := by
  intro r fb i h h' s mm hpos hlo hhi
  have hcont := C79_continuous p s i (fb i) (Set.Icc mm.2 mm.1) (fun e he => hpos e he.1 he.2)
  have hle : mm.2 ≤ mm.1 := by
    have := (C21_initial_bracket concs[i] (if i = 0 then p.preindustrial_co2_conc else concs[i - 1])
          (fferSeries p (dfnppOfConc p (fun y => concs.getD y 0.0) dtemp) (i * p.idtm))).1
    change 1 ≤ mm.1 - mm.2 at this
    linarith
  have hcpos : 0 < concs[i] := hc _ (List.getElem_mem h)
  have hg := backLoop_guess p (fun i => fferSeries p (dfnppOfConc p (fun y => concs.getD y 0.0) dtemp) (i * p.idtm))
    fb 1e-7 100 0 p.preindustrial_co2_conc concs st i h
  simp only [Nat.zero_add] at hg
  rw [show concs.getD (i - 1) p.preindustrial_co2_conc = concs[i - 1] by
    simp [List.getD_eq_getElem?_getD, List.getElem?_eq_getElem (show i - 1 < concs.length by omega)]] at hg
  have hri : r.1[i]? = some r.1[i] := List.getElem?_eq_getElem h'
  have hgi : r.1[i] = (guessEmissions (defaultModel p) s concs[i] mm i (fb i) 1e-7 100).guess :=
    Option.some_inj.1 (hri.symm.trans hg)
  have hst : (forward p fb st 0 (r.1.take (i + 1)))
      = (guessEmissions (defaultModel p) s concs[i] mm i (fb i) 1e-7 100).state := by
    obtain ⟨g1, -, -⟩ := guess_state (defaultModel p) (defaultModel_replayable p) s concs[i] mm i (fb i) 1e-7 100
    rw [g1, ← List.take_append_getElem h', forward_snoc]
    simp only [List.length_take, Nat.zero_add, Nat.min_eq_left h'.le, hgi]
    rfl
  have e2 : (2.0 : ℝ) = 2 := by norm_num
  have := bisect_root (defaultModel p) (defaultModel_replayable p) s i (fb i) concs[i] 1e-7 hcpos 100 mm.1 mm.2 hle hcont hlo hhi
    ⟨(mm.2 + mm.1) / 2.0, co2em2conc p s i ((mm.2 + mm.1) / 2.0) (fb i), [(mm.2 + mm.1) / 2.0]⟩ (by dsimp only; rw [e2]) rfl
  rw [hst, hgi]
  rcases this with this | ⟨e, ⟨a, b⟩, he, this⟩
  · exact Or.inl this
  · exact Or.inr ⟨e, a, b, he, this⟩

/-! ## Two sub-steps a year -/

/-- Two sub-steps per year and the given fertilisation factor, otherwise the default parameters. -/
noncomputable def twoStepsWith (beta : ℝ) : Pams ℝ := { Pams.default 2 1 with beta_f := beta }

/-- Two sub-steps per year, otherwise the default parameters. -/
noncomputable def twoSteps : Pams ℝ := twoStepsWith 0.287

/-- The two sub-steps of the first year from the pre-industrial state: air-sea fluxes `u`, `v` and partial pressures. -/
theorem two_first (beta e : ℝ) : ∃ u v : ℝ, u = kx / 2 / (1 + kx / 4) * (e / 2.123 / kx) ∧
    concWithin (twoStepsWith beta) (initState (twoStepsWith beta)) 0 e (some 0) 1 = u + 1 / 2 * pco2Of (toSea / 2 * u) + 278 ∧
    v = kx / 2 / (1 + kx / 4) * (e / 2.123 / kx - u + e / 2.123 / (2 * kx)
      + ((e - (60 * beta) * Real.log ((u + 1 / 2 * pco2Of (toSea / 2 * u) + 278) / 278)) / 2.123 / (2 * kx)
        - 2 * pco2Of (toSea / 2 * u) / kx)) ∧
    (co2em2conc (twoStepsWith beta) (initState (twoStepsWith beta)) 0 e (some 0)).xCO2 =
      v + 1 / 2 * pco2Of (toSea / 2 * v) + 1 / 2 * pco2Of (toSea / 2 * u) + 278 := by
  have e0 : (0.0 : ℝ) = 0 := by norm_num
  have e1 : (1.0 : ℝ) = 1 := by norm_num
  have e2 : (2.0 : ℝ) = 2 := by norm_num
  have e5 : (0.5 : ℝ) = 1 / 2 := by norm_num
  have hk : (0 : ℝ) < kx := by norm_num [kx]
  have h1 : solubilityTempFeedback (twoStepsWith beta) 0 = 1 :=
    C24_solubility_at_zero (twoStepsWith beta) (by norm_num [twoStepsWith, Pams.default])
  have h2 : mixedLayerTempFeedback (twoStepsWith beta) 0 = 75 := by
    rw [C24_mixed_at_zero (twoStepsWith beta) (by norm_num [twoStepsWith, Pams.default]) (by norm_num [twoStepsWith, Pams.default])]
    norm_num [twoStepsWith, Pams.default]
  set fn := fnppFromTemp (twoStepsWith beta) 0 with hfn
  set s0 : State ℝ := { initState (twoStepsWith beta) with solFb := 1, mlFb := 75 } with hs0
  have r := subStep_spec (twoStepsWith beta) fn e s0 0
  have r' := subStep_spec (twoStepsWith beta) fn e (subStep (twoStepsWith beta) fn e s0 0) 1
  have hx1 : concWithin (twoStepsWith beta) (initState (twoStepsWith beta)) 0 e (some 0) 1 = (subStep (twoStepsWith beta) fn e s0 0).xCO2 := by
    simp only [concWithin, Option.getD_some, h1, h2]
    rfl
  have hx2 : co2em2conc (twoStepsWith beta) (initState (twoStepsWith beta)) 0 e (some 0) = subStep (twoStepsWith beta) fn e (subStep (twoStepsWith beta) fn e s0 0) 1 := by
    simp only [co2em2conc, Option.getD_some, h1, h2]
    rfl
  rw [hx1, hx2]
  generalize subStep (twoStepsWith beta) fn e (subStep (twoStepsWith beta) fn e s0 0) 1 = q' at r'
  generalize subStep (twoStepsWith beta) fn e s0 0 = q at r r'
  have hd : q.dfnpp 0 = 0 := by rw [r.dfnpp]; simp [hs0, initState, e0]
  have hem : q.emCO2_prev = e / 2.123 := by
    rw [r.em]; simp [fferSeries, hd, e0, PPM_CO2_TO_PG_C]
  have hss : q.ss1 = e / 2.123 / (2 * kx) := by
    rw [r.ss1, hem, if_pos rfl, k_eq, e5]; ring
  have hsums : q.sums = 0 := by rw [r.sums, if_pos rfl, e0]
  have hs : q.sCO2 0 = kx / 2 / (1 + kx / 4) * (e / 2.123 / kx) := by
    rw [r.sCO2, hsums, hss]
    simp only [upd, if_true, e1, e2, k_eq', mofInt, show (twoStepsWith beta).idtm = 2 from rfl]
    norm_num
    ring
  have hy0 : s0.yCO2 = 0 := e0
  have hz : zCo2 (twoStepsWith beta) q 0 = toSea / 2 * q.sCO2 0 := by
    unfold zCo2
    rw [r.mlFb]
    simp only [lt_irrefl, if_false, e0, e1, e5, show (twoStepsWith beta).idtm = 2 from rfl, mofInt, hs0, PPMKG_TO_UMOL_PER_VOL, GE_COEFF,
      OCEAN_AREA, toSea]
    push_cast
    ring
  have hsol : q.solFb = 1 := r.solFb
  have hy : q.yCO2 = pco2Of (toSea / 2 * q.sCO2 0) := by rw [r.yCO2, partialPressure, hz, hsol, one_mul]
  have hx : q.xCO2 = q.sCO2 0 + 1 / 2 * pco2Of (toSea / 2 * q.sCO2 0) + 278 := by
    rw [r.xCO2, hy, hy0, e5]
    norm_num [twoStepsWith, Pams.default]
  have hd' : q'.dfnpp 1 = (60 * beta) * Real.log (q.xCO2 / 278) := by
    rw [r'.dfnpp, if_pos one_pos]
    simp only [upd, if_true, mlog, hfn, C24_npp_at_zero]
    simp only [twoStepsWith, Pams.default]
    norm_num
  have hem' : q'.emCO2_prev = (e - (60 * beta) * Real.log (q.xCO2 / 278)) / 2.123 := by
    rw [r'.em]
    simp only [fferSeries, hd', one_pos, if_true, sumf, Nat.sub_self, List.range_zero, List.map_nil, fsum, PPM_CO2_TO_PG_C]
    norm_num
  have hv : q'.sCO2 1 = kx / 2 / (1 + kx / 4) * (e / 2.123 / kx - q.sCO2 0 + e / 2.123 / (2 * kx)
      + ((e - (60 * beta) * Real.log (q.xCO2 / 278)) / 2.123 / (2 * kx) - 2 * q.yCO2 / kx)) := by
    rw [r'.sCO2, r'.sums, r'.ss1, hem']
    simp only [upd, if_true, one_ne_zero, if_false, hsums, hss, hem, Nat.sub_self]
    simp only [e1, e2, e5, k_eq, k_eq', mofInt, show (twoStepsWith beta).idtm = 2 from rfl]
    push_cast
    field_simp
    ring
  have hz' : zCo2 (twoStepsWith beta) q' 1 = toSea / 2 * q'.sCO2 1 := by
    unfold zCo2
    rw [r'.mlFb, r.mlFb]
    simp only [one_pos, if_true, Nat.sub_self, List.range_zero, List.map_nil, fsum, e0, e1, e5, show (twoStepsWith beta).idtm = 2 from rfl,
      mofInt, hs0, PPMKG_TO_UMOL_PER_VOL, GE_COEFF, OCEAN_AREA, toSea]
    push_cast
    simp
    ring
  have hsol' : q'.solFb = 1 := by rw [r'.solFb, hsol]
  have hy' : q'.yCO2 = pco2Of (toSea / 2 * q'.sCO2 1) := by rw [r'.yCO2, partialPressure, hz', hsol', one_mul]
  refine ⟨q.sCO2 0, q'.sCO2 1, hs, hx, ?_, ?_⟩
  · rw [hv, hx, hy]
  · rw [r'.xCO2, hy', hy, e5]
    norm_num [twoStepsWith, Pams.default]

theorem pco2_zero : pco2Of (0 : ℝ) = 0 := by
  rw [pco2Of, if_neg (by norm_num [zCo2Max])]
  norm_num [pco2Poly]

theorem two_sea : 0.175 < toSea / 2 ∧ toSea / 2 < 0.1751 := by constructor <;> norm_num [toSea]

/-- Between -1 and 1 PgC a year the first half year stays near the pre-industrial concentration. -/
theorem two_half {e u : ℝ} (h1 : -1 ≤ e) (h2 : e ≤ 1) (hu : u = kx / 2 / (1 + kx / 4) * (e / 2.123 / kx)) :
    |u| ≤ 0.23 ∧ |pco2Of (toSea / 2 * u)| ≤ 0.06 := by
  have hu' : u = e * (kx / 2 / (1 + kx / 4) * (1 / 2.123 / kx)) := by rw [hu]; ring
  have c1 : kx / 2 / (1 + kx / 4) * (1 / 2.123 / kx) ≤ 0.23 := by norm_num [kx]
  have c0 : 0 ≤ kx / 2 / (1 + kx / 4) * (1 / 2.123 / kx) := by norm_num [kx]
  generalize kx / 2 / (1 + kx / 4) * (1 / 2.123 / kx) = c at hu' c0 c1
  have a1 : -0.23 ≤ u := by rw [hu']; nlinarith
  have a2 : u ≤ 0.23 := by rw [hu']; nlinarith
  obtain ⟨t1, t2⟩ := two_sea
  generalize toSea / 2 = t at t1 t2 ⊢
  refine ⟨abs_le.2 ⟨a1, a2⟩, abs_le.2 ⟨?_, ?_⟩⟩
  · refine le_trans ?_ (C25_strictMono.monotone (show (-0.041 : ℝ) ≤ t * u by nlinarith))
    rw [pco2Of, if_neg (by norm_num [zCo2Max])]
    norm_num [pco2Poly]
  · refine le_trans (C25_strictMono.monotone (show t * u ≤ (0.041 : ℝ) by nlinarith)) ?_
    rw [pco2Of, if_neg (by norm_num [zCo2Max])]
    norm_num [pco2Poly]

/-- A little more than nothing emitted gives a little more than the pre-industrial concentration, and the other way round. -/
theorem two_ends : (co2em2conc twoSteps (initState twoSteps) 0 (-1) (some 0)).xCO2 ≤ 278 ∧
    278 ≤ (co2em2conc twoSteps (initState twoSteps) 0 1 (some 0)).xCO2 := by
  obtain ⟨t1, -⟩ := two_sea
  have ek : 1 / kx = 9.06 := by norm_num [kx]
  have hk : (0 : ℝ) < kx := by norm_num [kx]
  have hc : (0 : ℝ) < kx / 2 / (1 + kx / 4) := by positivity
  have rew : ∀ a b u L y : ℝ, a / 2.123 / kx - u + a / 2.123 / (2 * kx) + ((a - L) / 2.123 / (2 * kx) - 2 * y / kx)
      = a / 2.123 * (1 / kx) - u + a / 2.123 * (1 / kx) / 2 + ((a - L) / 2.123 * (1 / kx) / 2 - 2 * y * (1 / kx)) := by
    intros; field_simp
  constructor
  · obtain ⟨u, v, hu, -, hv, hx⟩ := two_first 0.287 (-1)
    obtain ⟨b1, b2⟩ := two_half le_rfl (by norm_num) hu
    rw [abs_le] at b1 b2
    have un : u ≤ 0 := by
      rw [hu]
      have : (-1 : ℝ) / 2.123 / kx ≤ 0 := by
        rw [div_div]; exact div_nonpos_of_nonpos_of_nonneg (by norm_num) (by positivity)
      exact mul_nonpos_of_nonneg_of_nonpos hc.le this
    have yn : pco2Of (toSea / 2 * u) ≤ 0 := by
      rw [← pco2_zero]; exact C25_strictMono.monotone (by nlinarith)
    generalize pco2Of (toSea / 2 * u) = y at *
    have xpos : 0 < (u + 1 / 2 * y + 278) / 278 := by
      apply div_pos <;> norm_num at * <;> linarith
    have hL := Real.one_sub_inv_le_log_of_pos xpos
    have hinv : ((u + 1 / 2 * y + 278) / 278)⁻¹ ≤ 1.001 := by
      rw [inv_le_comm₀ xpos (by norm_num), le_div_iff₀ (by norm_num)]
      norm_num at *
      linarith
    generalize Real.log ((u + 1 / 2 * y + 278) / 278) = L at *
    have vn : v ≤ 0 := by
      rw [hv]
      refine mul_nonpos_of_nonneg_of_nonpos hc.le ?_
      rw [rew _ 0, ek]
      norm_num at *
      linarith
    have wn : pco2Of (toSea / 2 * v) ≤ 0 := by
      rw [← pco2_zero]; exact C25_strictMono.monotone (by nlinarith)
    rw [twoSteps, hx]
    linarith
  · obtain ⟨u, v, hu, -, hv, hx⟩ := two_first 0.287 1
    obtain ⟨b1, b2⟩ := two_half (by norm_num) le_rfl hu
    rw [abs_le] at b1 b2
    have un : 0 ≤ u := by rw [hu]; positivity
    have yn : 0 ≤ pco2Of (toSea / 2 * u) := by
      rw [← pco2_zero]; exact C25_strictMono.monotone (by nlinarith)
    generalize pco2Of (toSea / 2 * u) = y at *
    have xpos : 0 < (u + 1 / 2 * y + 278) / 278 := by positivity
    have hL := Real.log_le_sub_one_of_pos xpos
    have hX : (u + 1 / 2 * y + 278) / 278 ≤ 1.001 := by
      rw [div_le_iff₀ (by norm_num)]
      norm_num at *
      linarith
    generalize Real.log ((u + 1 / 2 * y + 278) / 278) = L at *
    have vn : 0 ≤ v := by
      rw [hv]
      refine mul_nonneg hc.le ?_
      rw [rew _ 0, ek]
      norm_num at *
      linarith
    have wn : 0 ≤ pco2Of (toSea / 2 * v) := by
      rw [← pco2_zero]; exact C25_strictMono.monotone (by nlinarith)
    rw [twoSteps, hx]
    linarith

/-- The hypotheses of `C79_recovered_steps_partial` are met: two sub-steps a year, one year at the pre-industrial concentration. -/
example : ∃ e, (backCalculate twoSteps (initState twoSteps) [278] (fun _ => 0)).1 = [e] ∧
    (|278 - (co2em2conc twoSteps (initState twoSteps) 0 e (some 0)).xCO2| ≤ 1e-7 * 278 ∨
      ∃ e', (co2em2conc twoSteps (initState twoSteps) 0 e' (some 0)).xCO2 = 278 ∧ |e - e'| ≤ 2 / 2 ^ 101) := by
  obtain ⟨e, he⟩ : ∃ e, (backCalculate twoSteps (initState twoSteps) [278] (fun _ => 0)).1 = [e] := ⟨_, rfl⟩
  refine ⟨e, he, ?_⟩
  have hmm : initialMaxMin (278 : ℝ) twoSteps.preindustrial_co2_conc
      (fferSeries twoSteps (dfnppOfConc twoSteps (fun y => [(278 : ℝ)].getD y 0.0) (fun _ => 0)) (0 * twoSteps.idtm)) = (1, -1) := by
    have e278 : twoSteps.preindustrial_co2_conc = 278 := by norm_num [twoSteps, twoStepsWith, Pams.default]
    have hw : fferSeries twoSteps (dfnppOfConc twoSteps (fun y => [(278 : ℝ)].getD y 0.0) (fun _ => 0)) (0 * twoSteps.idtm) = 0 := by
      simp [fferSeries, dfnppOfConc, mlog, e278]
      norm_num
    rw [hw, e278]
    norm_num [initialMaxMin]
  have key := C79_recovered_steps_partial twoSteps (initState twoSteps) [278] (by simp) (fun _ => 0) 0 (by simp)
    (by rw [he]; simp)
  simp only [List.getElem_cons_zero, if_true, hmm, List.take_zero, he, forward, Nat.zero_add, List.take_succ_cons] at key
  rcases key (by
      intro x a b k k0 k1
      have hk1 : k < 2 := k1
      obtain rfl : k = 1 := by omega
      obtain ⟨u, v, hu, hx, -⟩ := two_first 0.287 x
      obtain ⟨b1, b2⟩ := two_half a b hu
      rw [abs_le] at b1 b2
      rw [twoSteps, hx]
      norm_num at *
      linarith) two_ends.1 two_ends.2 with h | ⟨e', -, -, h1, h2⟩
  · exact Or.inl h
  · refine Or.inr ⟨e', h1, ?_⟩
    norm_num at h2 ⊢
    exact h2

/-- With more than one sub-step a year, a higher emission need not give a higher concentration: two sub-steps a year and a strong
fertilisation, in the first year. What the first half of the year adds makes the land take up more than that in the second half. -/
theorem C79_more_emission_false :
    ∃ p : Pams ℝ, Responsive p ∧ p.idtm = 2 ∧ 0 < p.beta_f ∧
      (co2em2conc p (initState p) 0 0 (some 0)).xCO2 = p.preindustrial_co2_conc ∧
      (co2em2conc p (initState p) 0 1 (some 0)).xCO2 < p.preindustrial_co2_conc := by
  refine ⟨twoStepsWith 200, by constructor <;> norm_num [twoStepsWith, Pams.default], rfl,
    by norm_num [twoStepsWith, Pams.default], ?_, ?_⟩
  · obtain ⟨u, v, hu, -, hv, hx⟩ := two_first 200 0
    have hu0 : u = 0 := by rw [hu]; simp
    have hv0 : v = 0 := by rw [hv, hu0]; simp [pco2_zero]
    rw [hx, hu0, hv0]
    norm_num [pco2_zero, twoStepsWith, Pams.default]
  · obtain ⟨t1, -⟩ := two_sea
    have ek : 1 / kx = 9.06 := by norm_num [kx]
    have hk : (0 : ℝ) < kx := by norm_num [kx]
    obtain ⟨u, v, hu, -, hv, hx⟩ := two_first 200 1
    obtain ⟨b1, b2⟩ := two_half (by norm_num) le_rfl hu
    rw [abs_le] at b1 b2
    have un : 0.22 ≤ u := by rw [hu]; norm_num [kx]
    have yn : 0 ≤ pco2Of (toSea / 2 * u) := by
      rw [← pco2_zero]; exact C25_strictMono.monotone (by norm_num at *; nlinarith)
    generalize pco2Of (toSea / 2 * u) = y at *
    have xpos : 0 < (u + 1 / 2 * y + 278) / 278 := by
      apply div_pos <;> norm_num at * <;> linarith
    have hL := Real.one_sub_inv_le_log_of_pos xpos
    have hinv : ((u + 1 / 2 * y + 278) / 278)⁻¹ ≤ 0.99925 := by
      rw [inv_le_comm₀ xpos (by norm_num), le_div_iff₀ (by norm_num)]
      norm_num at *
      linarith
    generalize Real.log ((u + 1 / 2 * y + 278) / 278) = L at *
    have c1 : (0.05 : ℝ) ≤ kx / 2 / (1 + kx / 4) := by norm_num [kx]
    have vn : v ≤ -0.05 * 5 := by
      have rew : 1 / 2.123 / kx - u + 1 / 2.123 / (2 * kx) + ((1 - 60 * 200 * L) / 2.123 / (2 * kx) - 2 * y / kx)
          = 1 / 2.123 * (1 / kx) - u + 1 / 2.123 * (1 / kx) / 2 + ((1 - 60 * 200 * L) / 2.123 * (1 / kx) / 2 - 2 * y * (1 / kx)) := by
        field_simp
      rw [hv, rew, ek]
      have h5 : 1 / 2.123 * 9.06 - u + 1 / 2.123 * 9.06 / 2 + ((1 - 60 * 200 * L) / 2.123 * 9.06 / 2 - 2 * y * 9.06) ≤ -5 := by
        norm_num at *
        linarith
      nlinarith
    have wn : pco2Of (toSea / 2 * v) ≤ 0 := by
      rw [← pco2_zero]; exact C25_strictMono.monotone (by norm_num at *; nlinarith)
    rw [hx]
    norm_num [twoStepsWith, Pams.default] at *
    linarith

end Verif.Props
