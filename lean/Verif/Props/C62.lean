import Verif.Props.C61
import Verif.Props.C05_C09_C10_C11

/-!
# C62 — the emissions reported are the emissions used
-/

namespace Verif.Props
open Verif.Py Verif.Py.Dict Verif.Model Verif.Model.Handler Verif.Model.Driver Verif.Spec

/-- The emissions of species `c` in year `y`: the input table plus all perturbation rows meant for it. -/
noncomputable def usedEmis (i : Inputs ℝ) (c : String) (y : ℤ) : ℝ :=
  i.emis.cell c y + match i.pertEm with
    | none => 0
    | some rows => ((rows.filter (fun r => emissionTarget i.emis.cols r.component = c ∧ r.year = y)).map
        PertRow.value).sum

theorem perturbedEmis_spec {i : Inputs ℝ} {emis : Frame ℝ} (e : perturbedEmis i = .ok emis) :
    emis.cols = i.emis.cols ∧ emis.idx = i.emis.idx ∧
      ∀ c, ∀ y ∈ i.emis.idx, emis.cell c y = usedEmis i c y := by
  unfold perturbedEmis at e
  cases hp : i.pertEm with
  | none =>
    rw [hp, Except.ok.injEq] at e
    subst e
    refine ⟨rfl, rfl, fun c y _ => ?_⟩
    simp [usedEmis, hp]
  | some rows =>
    rw [hp] at e
    simp only [bind_eq_ok] at e
    obtain ⟨t, ht, e⟩ := e
    rw [pure_ok, Except.ok.injEq] at e
    subst e
    obtain ⟨h1, h2⟩ := C11_value ht
    refine ⟨rfl, rfl, fun c y hy => ?_⟩
    simp only [Frame.withTable, h2, Frame.toTable, usedEmis, hp, if_pos hy]
    rfl

section
variable {κ τ : Type}

theorem filter_pyRange {a b c : ℤ} (h1 : a ≤ b) (h2 : b ≤ c) :
    (pyRange a c).filter (fun y => y ∉ pyRange b c) = pyRange a b := by
  rw [← pyRange_append h1 h2, List.filter_append, List.filter_eq_self.2, List.filter_eq_nil_iff.2, List.append_nil]
  · intro y hy; simp [hy]
  · intro y hy
    rw [mem_pyRange] at hy
    simp only [decide_eq_true_eq, mem_pyRange]
    omega

theorem pyRange_getLast? {a b : ℤ} (h : a < b) : (pyRange a b).getLast? = some (b - 1) := by
  have := pyRange_succ_right (a := a) (b := b - 1) (by omega)
  rw [show b - 1 + 1 = b by ring] at this
  rw [this]
  simp

/-- The reported rows for a table of consecutive years. -/
theorem reportEmisRows_range {g : Handler ℝ κ} {ns ne k l : ℤ} (hy : g.years = pyRange ns (ne + 1)) (hle : ns ≤ ne)
    (he : g.emis.idx = pyRange k l) (hk : k ≤ ns) (hl : ne < l) :
    reportEmisRows g = if k = ns then .ok (pyRange ns (ne + 1)) else .error .valueError := by
  unfold reportEmisRows Handler.yLast
  rw [hy, he, pyRange_getLast? (by omega), pyRange_getLast? (by omega)]
  simp only [bind_ok, show ne + 1 - 1 + 1 = ne + 1 by ring, show l - 1 + 1 = l by ring]
  rw [if_pos, filter_pyRange (by omega) (by omega), pyRange_length, pyRange_length]
  · by_cases h : k = ns
    · subst h; simp
    · rw [if_neg h, if_neg (by omega)]
  · rw [List.all_eq_true]
    intro y hy'
    rw [mem_pyRange] at hy'
    simp only [decide_eq_true_eq, mem_pyRange]
    omega

/-- What is known of the emission table after a run. -/
theorem run_emis {cops : CarbonOps ℝ κ} {tops : ThermalOps ℝ τ} {d0 d d1 : Driver ℝ κ}
    {i : Inputs ℝ} {pamset carb : Option (Dict (PyVal ℝ))} {h0 g : Handler ℝ κ} {es : ℤ}
    {ps : List (RunPams ℝ)} {p : RunPams ℝ} {t : τ}
    (ht : RunTables i.concIn i.emis (Dict.set (Factory.checkPamset pamset) "conc_run" (.bool i.concRun))
      d0.nystart es d0.nyend)
    (hc : construct cops i pamset carb = .ok h0) (hd0 : d0.source = .handler h0)
    (ha : After cops tops d0 ps d) (hr : run cops tops d p = .ok (d1, t)) (hg : d1.source = .handler g) :
    g.years = pyRange d0.nystart (d0.nyend + 1) ∧ perturbedEmis i = .ok g.emis := by
  obtain ⟨emis, a, b, c, fb, luc, sun, r, Y, -⟩ :=
    run_year yearLaw_real ht hc hd0 ha hr hg (le_refl _) ht.nonempty
  have he : g.emis = emis := by rw [Y.sameG.emis, Y.sameC.emis, Y.sameB.emis, Y.emis]
  rw [he]
  exact ⟨by rw [Y.sameG.years, Y.sameC.years, Y.sameB.years, Y.years], Y.emisE⟩

/-- C62: after every run, whatever the history, the reported emissions are the emissions used: one row
per run year, a `CO2` column with the sum of fossil and land use emissions, and one column per other
species with the input values plus the emission perturbations. For an emission table that begins with
the start year. -/
theorem C62_columns {cops : CarbonOps ℝ κ} {tops : ThermalOps ℝ τ} {d0 d d1 : Driver ℝ κ}
    {i : Inputs ℝ} {pamset carb : Option (Dict (PyVal ℝ))} {h0 g : Handler ℝ κ} {es : ℤ}
    {ps : List (RunPams ℝ)} {p : RunPams ℝ} {t : τ}
    (ht : RunTables i.concIn i.emis (Dict.set (Factory.checkPamset pamset) "conc_run" (.bool i.concRun))
      d0.nystart es d0.nyend)
    (hc : construct cops i pamset carb = .ok h0) (hd0 : d0.source = .handler h0)
    (ha : After cops tops d0 ps d) (hr : run cops tops d p = .ok (d1, t)) (hg : d1.source = .handler g)
    {l : ℤ} (hidx : i.emis.idx = pyRange d0.nystart l) (hl : d0.nyend < l)
    (hff : "CO2_FF" ∈ i.emis.cols) (hlu : "CO2_AFOLU" ∈ i.emis.cols) :
    ∃ cols, reportEmis g = .ok cols ∧
      (∀ n, n ∈ cols.map Prod.fst ↔ n = "CO2" ∨ n ∈ i.emis.cols ∧ n ≠ "CO2_FF" ∧ n ≠ "CO2_AFOLU") ∧
      ∀ c ∈ cols, ∀ y, c.2 y = if d0.nystart ≤ y ∧ y ≤ d0.nyend then
        some (if c.1 = "CO2" then usedEmis i "CO2_FF" y + usedEmis i "CO2_AFOLU" y else usedEmis i c.1 y)
        else none := by
  obtain ⟨hy, he⟩ := run_emis ht hc hd0 ha hr hg
  obtain ⟨hcols, hix, hcell⟩ := perturbedEmis_spec he
  have hmem : ∀ y, y ∈ pyRange d0.nystart (d0.nyend + 1) ↔ d0.nystart ≤ y ∧ y ≤ d0.nyend := by
    intro y; rw [mem_pyRange]; omega
  have hin : ∀ y, d0.nystart ≤ y ∧ y ≤ d0.nyend → y ∈ i.emis.idx := by
    intro y hy; rw [hidx, mem_pyRange]; omega
  unfold reportEmis
  rw [reportEmisRows_range hy ht.nonempty (hix.trans hidx) (le_refl _) hl, if_pos rfl, bind_ok, hcols,
    if_pos ⟨hff, hlu⟩, pure_ok]
  refine ⟨_, rfl, ?_, ?_⟩
  · intro n
    simp only [List.map_cons, List.map_map, List.mem_cons, List.mem_map, List.mem_filter, Function.comp,
      List.not_mem_nil, or_false, decide_eq_true_eq, not_or]
    constructor
    · rintro (rfl | ⟨m, ⟨h1, h2, h3, h4⟩, rfl⟩)
      · exact Or.inl rfl
      · exact Or.inr ⟨h1, h2, h3⟩
    · rintro (rfl | ⟨h1, h2, h3⟩)
      · exact Or.inl rfl
      · by_cases h4 : n = "CO2"
        · exact Or.inl h4
        · exact Or.inr ⟨n, ⟨h1, h2, h3, h4⟩, rfl⟩
  · intro c hcm y
    rcases List.mem_cons.1 hcm with rfl | hcm
    · simp only [if_true]
      by_cases hyy : d0.nystart ≤ y ∧ y ≤ d0.nyend
      · rw [if_pos ((hmem y).2 hyy), if_pos hyy, hcell _ _ (hin y hyy), hcell _ _ (hin y hyy)]
      · rw [if_neg (fun h => hyy ((hmem y).1 h)), if_neg hyy]
    · obtain ⟨n, hn, rfl⟩ := List.mem_map.1 hcm
      have hn2 : n ≠ "CO2" := by
        have := (List.mem_filter.1 hn).2
        simp only [List.mem_cons, List.not_mem_nil, or_false, decide_eq_true_eq, not_or] at this
        exact this.2.2
      simp only
      by_cases hyy : d0.nystart ≤ y ∧ y ≤ d0.nyend
      · rw [if_pos ((hmem y).2 hyy), if_pos hyy, if_neg hn2, hcell _ _ (hin y hyy)]
      · rw [if_neg (fun h => hyy ((hmem y).1 h)), if_neg hyy]

/-- C62, finding: with an emission table that begins before the start year (possible for tables handed
over in memory, which are not cut) the run succeeds but its results cannot be collected:
`ValueError`. -/
theorem C62_early_table_fails {cops : CarbonOps ℝ κ} {tops : ThermalOps ℝ τ} {d0 d d1 : Driver ℝ κ}
    {i : Inputs ℝ} {pamset carb : Option (Dict (PyVal ℝ))} {h0 g : Handler ℝ κ} {es : ℤ}
    {ps : List (RunPams ℝ)} {p : RunPams ℝ} {t : τ}
    (ht : RunTables i.concIn i.emis (Dict.set (Factory.checkPamset pamset) "conc_run" (.bool i.concRun))
      d0.nystart es d0.nyend)
    (hc : construct cops i pamset carb = .ok h0) (hd0 : d0.source = .handler h0)
    (ha : After cops tops d0 ps d) (hr : run cops tops d p = .ok (d1, t)) (hg : d1.source = .handler g)
    {k l : ℤ} (hidx : i.emis.idx = pyRange k l) (hk : k < d0.nystart) (hl : d0.nyend < l) :
    reportEmis g = .error .valueError := by
  obtain ⟨hy, he⟩ := run_emis ht hc hd0 ha hr hg
  obtain ⟨hcols, hix, hcell⟩ := perturbedEmis_spec he
  unfold reportEmis
  rw [reportEmisRows_range hy ht.nonempty (hix.trans hidx) hk.le hl, if_neg (by omega)]
  rfl

end

/-- The small run meets the hypotheses of `C62_columns`: its CO2 column is `2 (y - 1995)`. -/
example (b : Bool) : ∃ h d1 g cols, construct Exec.plainCarbon (Exec.plainInputs b) Exec.plainPam none = .ok h ∧
    run Exec.plainCarbon Exec.plainThermal (Exec.plainDriver h) ⟨none, none, none⟩ = .ok (d1, ()) ∧
    d1.source = .handler g ∧ reportEmis g = .ok cols ∧
    ∃ c ∈ cols, c.1 = "CO2" ∧ c.2 2003 = some 16 := by
  obtain ⟨h, d1, g, ht, hc, hr, hg, hk⟩ := plain_case b
  obtain ⟨cols, h1, h2, h3⟩ := C62_columns (d0 := Exec.plainDriver h) ht hc rfl After.fresh hr hg (l := 2006) rfl
    (by simp [Exec.plainDriver]) (by simp [Exec.plainInputs, Exec.plainEmis]) (by simp [Exec.plainInputs, Exec.plainEmis])
  refine ⟨h, d1, g, cols, hc, hr, hg, h1, ?_⟩
  obtain ⟨c, hcm, hc1⟩ := List.mem_map.1 ((h2 "CO2").2 (Or.inl rfl))
  refine ⟨c, hcm, hc1, ?_⟩
  rw [h3 c hcm, if_pos (by simp [Exec.plainDriver]), if_pos hc1]
  simp only [usedEmis, Exec.plainInputs, Exec.plainEmis]
  norm_num

end Verif.Props
