import Verif.Lemmas.Precalc
import Verif.Spec.Ozone
import Verif.Props.C14

/-!
# C15 — stratospheric ozone responds to halogens with a three-year lag
-/

namespace Verif.Props
open Verif.Py Verif.Model Verif.Model.Handler Verif.Spec

theorem mapM_getD {α β : Type} {f : α → Except PyErr β} {l : List α} {r : List β}
    (h : l.mapM f = .ok r) {k : ℕ} (hk : k < l.length) (d : β) : f l[k] = .ok (r.getD k d) := by
  have e := mapM_ok.1 h
  have hl : r.length = l.length := by simpa using (congrArg List.length e).symm
  have h1 : (l.map f)[k]? = some (f l[k]) := by simp [hk]
  rw [e] at h1
  have hk' : k < r.length := by omega
  simp only [List.getElem?_map, List.getElem?_eq_getElem hk', Option.map_some,
    Option.some.injEq] at h1
  rw [← h1, List.getD_eq_getElem?_getD, List.getElem?_eq_getElem hk', Option.getD_some]

theorem stratQuantities_eq {cl br : Dict Int} {gases : List String} {rows : List (Row ℝ)}
    {y0 y : ℤ} {s : ℝ × ℝ} (h : stratQuantities cl br gases rows y0 y = .ok s)
    {v : String → ℤ → ℝ} (hv : ∀ c z w, rowAt gases rows c z = .ok w → w = v c z) :
    s = ((cl.map (chlorineTerm (fun c => v c y0) (fun c => v c y))).sum,
      (br.map (bromineTerm (fun c => v c y0) (fun c => v c y))).sum) := by
  unfold stratQuantities at h
  simp only [bind_eq_ok] at h
  obtain ⟨sc, hsc, sb, hsb, hs⟩ := h
  rw [pure_ok, Except.ok.injEq] at hs
  subst hs
  rw [fsum_eq_sum, fsum_eq_sum]
  have key : ∀ (l : List (String × ℤ)) (f : String × ℤ → Except PyErr ℝ) (g : String × ℤ → ℝ)
      (r : List ℝ), (∀ p w, f p = .ok w → w = g p) → l.mapM f = .ok r → r = l.map g := by
    intro l f g
    induction l with
    | nil => intro r _ h; simpa [pure_ok] using h.symm
    | cons p l ih =>
      intro r hf h
      rw [List.mapM_cons] at h
      simp only [bind_eq_ok] at h
      obtain ⟨w, hw, ws, hws, h⟩ := h
      rw [pure_ok, Except.ok.injEq] at h
      rw [← h, hf p w hw, ih ws hf hws, List.map_cons]
  rw [key cl _ (chlorineTerm (fun c => v c y0) (fun c => v c y)) sc _ hsc,
    key br _ (bromineTerm (fun c => v c y0) (fun c => v c y)) sb _ hsb]
  · intro p w hw
    unfold brTerm at hw
    simp only [bind_eq_ok] at hw
    obtain ⟨a, ha, b, hb, hw⟩ := hw
    rw [pure_ok, Except.ok.injEq] at hw
    rw [← hw, hv _ _ _ ha, hv _ _ _ hb]
    rfl
  · intro p w hw
    unfold clTerm at hw
    simp only [bind_eq_ok] at hw
    obtain ⟨a, ha, b, hb, hw⟩ := hw
    rw [pure_ok, Except.ok.injEq] at hw
    rw [← hw, hv _ _ _ ha, hv _ _ _ hb]
    rfl

/-- C15, main statement. `v` are the reported concentrations of the pre-computed gases: the forcing is
zero in the first three years, and in every later year `y` it is the depletion caused by the halogens of
year `y - 3` relative to the start year. -/
theorem C15_lag {gas : Dict (Gas ℝ)} {concIn emis : Frame ℝ} {pam : Dict (PyVal ℝ)}
    {y0 y1 : ℤ} {cl br : Dict Int} {p : Precalc ℝ} {so3 : Gas ℝ} (hy : y0 < y1)
    (h : precalculate gas concIn emis pam none (pyRange y0 y1) cl br = .ok p)
    (hrows : p.conc.map Prod.fst = pyRange y0 y1) (hso3 : gas.get? "STRAT_O3" = some so3)
    {v : String → ℤ → ℝ} (hv : ∀ c y w, rowAt p.gases p.conc c y = .ok w → w = v c y) :
    "STRAT_O3" ∈ p.erf.cols ∧
    (∀ y, y0 ≤ y → y < y1 → y < y0 + 3 → p.erf.val "STRAT_O3" y = some 0) ∧
    (∀ y, y0 + 3 ≤ y → y < y1 → p.erf.val "STRAT_O3" y =
      some (ozoneDepletion so3.sarf cl br (fun c => v c y0) (fun c => v c (y - 3)))) := by
  obtain ⟨so3', late, -, -, hs, hlate, hcols, hval⟩ := precalculate_spec hy h hrows
  rw [hso3] at hs
  obtain rfl : so3 = so3' := by simpa using hs
  refine ⟨?_, ?_, ?_⟩
  · rw [hcols]
    split
    · assumption
    · simp
  · intro y h1 h2 h3
    rw [hval _ y h1 h2, if_pos rfl, if_pos h3]
    unfold stratO3Forcing
    norm_num
  · intro y h1 h2
    rw [hval _ y (by omega) h2, if_pos rfl, if_neg (by omega)]
    have hk : (y - (y0 + 3)).toNat < (pyRange y0 (y1 - 3)).length := by
      rw [pyRange_length]; omega
    have := mapM_getD hlate hk (0.0, 0.0)
    have hidx : (pyRange y0 (y1 - 3))[(y - (y0 + 3)).toNat] = y - 3 := by
      simp only [pyRange, List.getElem_map, List.getElem_range]
      omega
    rw [hidx] at this
    rw [stratQuantities_eq this hv]
    unfold stratO3Forcing ozoneDepletion
    norm_num

/-- C15: the forcing in year `y` depends on the halogens of year `y - 3` and of the start year only.
Two runs with the same gas table whose halogen concentrations agree in those two years have the same
stratospheric ozone forcing in year `y`, whatever else differs. -/
theorem C15_depends {gas : Dict (Gas ℝ)} {concIn emis concIn' emis' : Frame ℝ}
    {pam pam' : Dict (PyVal ℝ)} {y0 y1 y1' : ℤ} {cl br : Dict Int} {p p' : Precalc ℝ}
    (hy : y0 < y1) (hy' : y0 < y1')
    (h : precalculate gas concIn emis pam none (pyRange y0 y1) cl br = .ok p)
    (h' : precalculate gas concIn' emis' pam' none (pyRange y0 y1') cl br = .ok p')
    (hrows : p.conc.map Prod.fst = pyRange y0 y1) (hrows' : p'.conc.map Prod.fst = pyRange y0 y1')
    {y : ℤ} (h1 : y0 ≤ y) (h2 : y < y1) (h3 : y < y1')
    (hagree : ∀ c ∈ cl.map Prod.fst ++ br.map Prod.fst, ∀ z, z = y0 ∨ z = y - 3 →
      rowAt p.gases p.conc c z = rowAt p'.gases p'.conc c z) :
    p.erf.val "STRAT_O3" y = p'.erf.val "STRAT_O3" y := by
  obtain ⟨so3, -, -, -, hso3, -⟩ := precalculate_spec hy h hrows
  have key : ∀ q : Precalc ℝ, ∀ c z w, rowAt q.gases q.conc c z = .ok w →
      w = (fun c z => match rowAt q.gases q.conc c z with | .ok w => w | .error _ => 0) c z := by
    intro q c z w e
    simp only [e]
  obtain ⟨-, a1, a2⟩ := C15_lag hy h hrows hso3 (key p)
  obtain ⟨-, b1, b2⟩ := C15_lag hy' h' hrows' hso3 (key p')
  by_cases hlt : y < y0 + 3
  · rw [a1 y h1 h2 hlt, b1 y h1 h3 hlt]
  · rw [a2 y (by omega) h2, b2 y (by omega) h3]
    unfold ozoneDepletion
    congr 6
    · congr 2
      apply List.map_congr_left
      intro g hg
      unfold chlorineTerm
      have hm : g.1 ∈ cl.map Prod.fst ++ br.map Prod.fst :=
        List.mem_append_left _ (List.mem_map_of_mem hg)
      simp only [hagree g.1 hm y0 (Or.inl rfl), hagree g.1 hm (y - 3) (Or.inr rfl)]
    · congr 2
      apply List.map_congr_left
      intro g hg
      unfold bromineTerm
      have hm : g.1 ∈ cl.map Prod.fst ++ br.map Prod.fst :=
        List.mem_append_right _ (List.mem_map_of_mem hg)
      simp only [hagree g.1 hm y0 (Or.inl rfl), hagree g.1 hm (y - 3) (Or.inr rfl)]

/-- C15: depletion is never positive when all halogens are at or above their start-year level (for
non-negative atom counts and a non-negative adjustment factor). -/
theorem C15_nonpos {sarf : ℝ} (hs : 0 ≤ sarf) {cl br : List (String × ℤ)}
    (hcl : ∀ g ∈ cl, 0 ≤ g.2) (hbr : ∀ g ∈ br, 0 ≤ g.2) {c0 c : String → ℝ}
    (hc : ∀ g ∈ cl ++ br, c0 g.1 ≤ c g.1) : ozoneDepletion sarf cl br c0 c ≤ 0 := by
  have h1 : 0 ≤ (cl.map (chlorineTerm c0 c)).sum := by
    apply List.sum_nonneg
    intro x hx
    obtain ⟨g, hg, rfl⟩ := List.mem_map.1 hx
    unfold chlorineTerm
    have hd : 0 ≤ c g.1 - c0 g.1 := by
      have := hc g (List.mem_append_left _ hg); linarith
    have hsg : (0 : ℝ) ≤ (SignType.sign (c g.1 - c0 g.1) : ℝ) := by
      rcases hd.lt_or_eq with h | h
      · rw [sign_pos h]; simp
      · rw [← h]; simp
    have hg2 : (0 : ℝ) ≤ (g.2 : ℝ) := by exact_mod_cast hcl g hg
    positivity
  have h2 : 0 ≤ (br.map (bromineTerm c0 c)).sum := by
    apply List.sum_nonneg
    intro x hx
    obtain ⟨g, hg, rfl⟩ := List.mem_map.1 hx
    unfold bromineTerm
    have hd : 0 ≤ c g.1 - c0 g.1 := by
      have := hc g (List.mem_append_right _ hg); linarith
    have hg2 : (0 : ℝ) ≤ (g.2 : ℝ) := by exact_mod_cast hbr g hg
    positivity
  unfold ozoneDepletion
  have h3 : 0 ≤ 0.05 / 0.17377 * (0.000552 * (cl.map (chlorineTerm c0 c)).sum
      + 3.048 * (br.map (bromineTerm c0 c)).sum) / 1000 * sarf := by positivity
  have : -(0.05 / 0.17377 * (0.000552 * (cl.map (chlorineTerm c0 c)).sum
      + 3.048 * (br.map (bromineTerm c0 c)).sum)) / 1000 * sarf =
      -(0.05 / 0.17377 * (0.000552 * (cl.map (chlorineTerm c0 c)).sum
      + 3.048 * (br.map (bromineTerm c0 c)).sum) / 1000 * sarf) := by ring
  rw [this]
  linarith

/-! ## Non-vacuity -/

/-- A gas table with one halogen (falling below its start level is not assumed) and the ozone row. -/
noncomputable def exO3Gas : Dict (Gas ℝ) :=
  [("CO2", ⟨"ppm", 0, 1, 1, 1, 1, 0, 1⟩), ("CH4", ⟨"ppb", 0, 1, 1, 1, 1, 0, 1⟩),
   ("N2O", ⟨"ppb", 0, 1, 1, 1, 1, 0, 1⟩), ("X", exX), ("STRAT_O3", ⟨"-", 0, 1, 1, 1, 1, 0, 1⟩)]

example : ∃ p, precalculate exO3Gas exConcIn exEmis (exPam 2003) none (pyRange 2000 2006)
    [("X", 2)] [] = .ok p ∧ p.conc.map Prod.fst = pyRange 2000 2006 := by
  have hg : vanillaGases exO3Gas = .ok ["X"] := by
    simp [vanillaGases, exO3Gas, Dict.has, Dict.get?, exX]
  obtain ⟨rows, hr⟩ := precalc_total (gas := exO3Gas) (exPam_run 2003)
    (exCovers 2003 (by omega) (by omega)) (gases := ["X"]) (by simp [exConcIn]) (by simp [exEmis])
  have hrows := (C14_series_partial hr (exPam_run 2003) (exCovers 2003 (by omega) (by omega))
    (by omega)).1
  have hrf := rows_of_years hrows
  have hq : ∀ y, 2000 ≤ y → y < 2006 → ∃ s, stratQuantities [("X", 2)] [] ["X"] rows 2000 y = .ok s := by
    intro y h1 h2
    have ha : ∀ z, 2000 ≤ z → z < 2006 → rowAt ["X"] rows "X" z = .ok (rowVal rows "X" z) := by
      intro z h1 h2
      conv_lhs => rw [hrf]
      exact rowAt_map (v := rowVal rows) (by simp) h1 (by omega)
    unfold stratQuantities
    simp only [List.mapM_cons, List.mapM_nil, clTerm, ha y h1 h2, ha 2000 (by omega) (by omega),
      bind_ok, pure_ok]
    exact ⟨_, rfl⟩
  have hlate : ∃ late, (pyRange 2000 (2000 + 3)).mapM
      (stratQuantities [("X", 2)] [] ["X"] rows 2000) = .ok late := by
    obtain ⟨s0, e0⟩ := hq 2000 (by omega) (by omega)
    obtain ⟨s1, e1⟩ := hq 2001 (by omega) (by omega)
    obtain ⟨s2, e2⟩ := hq 2002 (by omega) (by omega)
    refine ⟨[s0, s1, s2], ?_⟩
    have : pyRange 2000 (2000 + 3) = [2000, 2001, 2002] := by decide
    rw [this]
    simp only [List.mapM_cons, List.mapM_nil, e0, e1, e2, bind_ok, pure_ok]
  obtain ⟨late, hlate⟩ := hlate
  have hlen : late.length = 3 := by
    have := congrArg List.length (mapM_ok.1 hlate)
    simpa [pyRange_length] using this.symm
  have hstrat : stratO3Series [("X", 2)] [] ["X"] rows (pyRange 2000 2006) 1 =
      .ok ((List.replicate 3 ((0.0 : ℝ), (0.0 : ℝ)) ++ late).map (stratO3Forcing 1)) := by
    have h6 : pyRange 2000 2006 = [2000, 2001, 2002, 2003, 2004, 2005] := by decide
    have h3 : pyRange 2000 (2000 + 3) = [2000, 2001, 2002] := by decide
    rw [h3] at hlate
    unfold stratO3Series
    rw [h6]
    simp [hlate, bind_ok, pure_ok]
  unfold precalculate
  rw [hg, bind_ok, hr, bind_ok]
  have he := precalcErf_years (gas := gasOr exO3Gas) (show (2000 : ℤ) < 2005 + 1 by omega)
    (rowVal rows)
  rw [← hrf] at he
  rw [he, bind_ok]
  have hso : Dict.getE exO3Gas "STRAT_O3" = .ok ⟨"-", 0, 1, 1, 1, 1, 0, 1⟩ := by
    simp [exO3Gas, Dict.getE, Dict.get?]
  rw [hso, bind_ok]
  simp only
  rw [hstrat, bind_ok]
  unfold addColumn
  rw [if_pos (by simp [pyRange_length, hlen]), bind_ok]
  simp only [Option.getD_none, addForcingPertVanilla_nil, bind_ok, pure_ok]
  exact ⟨_, rfl, hrows⟩

end Verif.Props
