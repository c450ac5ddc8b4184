import Verif.Props.C48
import Mathlib.Tactic.Linarith

/-!
# C49: tables are cut to the run years; C50: row-per-year files are aligned to the run years
-/

namespace Verif.Props
open Verif.Py Verif.Py.Dict Verif.Model Verif.Model.Handler Verif.Model.Driver Verif.Model.InputHandler Verif.Spec.Inputs

section
variable {F κ τ : Type}

theorem frame_at_congr {t u : Frame F} {c c' : String} {y : ℤ} (h : (c ∈ t.cols ∧ y ∈ t.idx) ↔ (c' ∈ u.cols ∧ y ∈ u.idx))
    (hv : t.cell c y = u.cell c' y) : t.at' c y = u.at' c' y := by
  unfold Frame.at'
  by_cases hh : c ∈ t.cols ∧ y ∈ t.idx
  · rw [if_pos hh, if_pos (h.1 hh), hv]
  · rw [if_neg hh, if_neg (fun e => hh (h.2 e))]

theorem frame_at_error {t : Frame F} {c : String} {y : ℤ} (h : ¬ (c ∈ t.cols ∧ y ∈ t.idx)) : t.at' c y = .error .keyError := by
  unfold Frame.at'
  rw [if_neg h]

theorem pyRange_head? {a b : ℤ} (h : a < b) : (pyRange a b).head? = some a := by
  rw [pyRange_cons h]; rfl

theorem pyRange_last_eq {a b : ℤ} (h : a ≤ b) : (pyRange a (b + 1)).getLast? = some b := by
  rw [pyRange_succ_right h, List.getLast?_append]; rfl

theorem filter_pyRange_window (first last start stop : ℤ) :
    (pyRange first (last + 1)).filter (fun y => decide (start ≤ y ∧ y ≤ stop)) =
      pyRange (max first start) (min last stop + 1) := by
  by_cases hA : start ≤ stop + 1
  swap
  · rw [pyRange_empty (a := max first start) (by omega), List.filter_eq_nil_iff]
    intro y _
    simp only [decide_eq_true_eq]
    omega
  by_cases hB : max first start ≤ min last stop + 1
  swap
  · rw [pyRange_empty (a := max first start) (by omega), List.filter_eq_nil_iff]
    intro y hy
    rw [mem_pyRange] at hy
    simp only [decide_eq_true_eq]
    omega
  by_cases hC : first ≤ last + 1
  swap
  · rw [pyRange_empty (a := first) (by omega), pyRange_empty (a := max first start) (by omega)]; rfl
  rw [← pyRange_append (a := first) (b := max first start) (c := last + 1) (by omega) (by omega),
    ← pyRange_append (a := max first start) (b := min last stop + 1) (c := last + 1) (by omega) (by omega),
    List.filter_append, List.filter_append]
  have e1 : (pyRange first (max first start)).filter (fun y => decide (start ≤ y ∧ y ≤ stop)) = [] := by
    rw [List.filter_eq_nil_iff]
    intro y hy
    rw [mem_pyRange] at hy
    simp only [decide_eq_true_eq]
    omega
  have e2 : (pyRange (min last stop + 1) (last + 1)).filter (fun y => decide (start ≤ y ∧ y ≤ stop)) = [] := by
    rw [List.filter_eq_nil_iff]
    intro y hy
    rw [mem_pyRange] at hy
    simp only [decide_eq_true_eq]
    omega
  have e3 : (pyRange (max first start) (min last stop + 1)).filter (fun y => decide (start ≤ y ∧ y ≤ stop)) =
      pyRange (max first start) (min last stop + 1) := by
    rw [List.filter_eq_self]
    intro y hy
    rw [mem_pyRange] at hy
    simp only [decide_eq_true_eq]
    omega
  rw [e1, e2, e3, List.append_nil, List.nil_append]

/-- **C49** A table with contiguous years is cut to exactly the rows with a year in `[start, stop]`, each with its own
values: a cell of such a year is what it was, a cell of another year is gone. (The bounds must not lie beyond the table;
see `C49_beyond`.) -/
theorem C49_cut {t : Frame F} {first last start stop : ℤ} (hc : Contiguous t first last) (hne : first ≤ last)
    (h1 : start ≤ last + 1) (h2 : first ≤ stop + 1) :
    ∃ t', cutYears t start stop = .ok t' ∧ t'.cols = t.cols ∧ Contiguous t' (max first start) (min last stop) ∧
      ∀ c y, t'.at' c y = if start ≤ y ∧ y ≤ stop then t.at' c y else .error .keyError := by
  have hidx : t.idx = pyRange first (last + 1) := hc
  have hall : (pyRange first start ++ pyRange (stop + 1) (last + 1)).all (fun y => decide (y ∈ t.idx)) = true := by
    rw [List.all_eq_true]
    intro y hy
    rw [hidx, decide_eq_true_eq, mem_pyRange]
    rw [List.mem_append, mem_pyRange, mem_pyRange] at hy
    omega
  have hfil : t.idx.filter (fun y => decide (y ∉ pyRange first start ++ pyRange (stop + 1) (last + 1))) =
      t.idx.filter (fun y => decide (start ≤ y ∧ y ≤ stop)) := by
    apply List.filter_congr
    intro y hy
    rw [hidx, mem_pyRange] at hy
    rw [decide_eq_decide, List.mem_append, mem_pyRange, mem_pyRange]
    omega
  refine ⟨{ t with idx := t.idx.filter (fun y => decide (y ∉ pyRange first start ++ pyRange (stop + 1) (last + 1))) },
    ?_, rfl, ?_, ?_⟩
  · unfold cutYears
    have e1 : t.idx.head? = some first := by rw [hidx]; exact pyRange_head? (by omega)
    have e2 : t.idx.getLast? = some last := by rw [hidx]; exact pyRange_last_eq hne
    rw [e1, e2]
    simp only
    rw [if_pos hall]
  · show t.idx.filter _ = _
    rw [hfil, hidx, filter_pyRange_window]
  · intro c y
    have hm : ∀ y, y ∈ t.idx.filter (fun y => decide (y ∉ pyRange first start ++ pyRange (stop + 1) (last + 1))) ↔
        y ∈ t.idx ∧ start ≤ y ∧ y ≤ stop := by
      intro y
      rw [hfil, List.mem_filter, decide_eq_true_eq]
    by_cases hy : start ≤ y ∧ y ≤ stop
    · rw [if_pos hy]
      refine frame_at_congr ?_ rfl
      show c ∈ t.cols ∧ y ∈ t.idx.filter _ ↔ _
      rw [hm]
      exact ⟨fun e => ⟨e.1, e.2.1⟩, fun e => ⟨e.1, e.2, hy⟩⟩
    · rw [if_neg hy]
      refine frame_at_error ?_
      show ¬ (c ∈ t.cols ∧ y ∈ t.idx.filter _)
      rw [hm]
      exact fun e => hy e.2.2

/-- **C49** Years that lie beyond the table are rejected with `KeyError`. -/
theorem C49_beyond {t : Frame F} {first last start stop : ℤ} (hc : Contiguous t first last) (hne : first ≤ last)
    (h : last + 1 < start ∨ stop + 1 < first) : cutYears t start stop = .error .keyError := by
  have hidx : t.idx = pyRange first (last + 1) := hc
  unfold cutYears
  have e1 : t.idx.head? = some first := by rw [hidx]; exact pyRange_head? (by omega)
  have e2 : t.idx.getLast? = some last := by rw [hidx]; exact pyRange_last_eq hne
  rw [e1, e2]
  simp only
  rw [if_neg]
  rw [List.all_eq_true]
  intro hall
  rcases h with h | h
  · have := hall (last + 1) (by rw [List.mem_append, mem_pyRange]; left; omega)
    rw [decide_eq_true_eq, hidx, mem_pyRange] at this
    omega
  · have := hall (stop + 1) (by rw [List.mem_append, mem_pyRange, mem_pyRange]; right; omega)
    rw [decide_eq_true_eq, hidx, mem_pyRange] at this
    omega

/-- **C49** Emission tables: cut the same way; the two carbon dioxide columns become `CO2_FF` and `CO2_AFOLU`, every
column keeps its values. -/
theorem C49_emissions {t : Frame F} {first last start stop : ℤ} (hc : Contiguous t first last) (hne : first ≤ last)
    (h1 : start ≤ last + 1) (h2 : first ≤ stop + 1) (hn : "CO2_FF" ∉ t.cols ∧ "CO2_AFOLU" ∉ t.cols) :
    ∃ t', readEmissions t start stop = .ok t' ∧ Contiguous t' (max first start) (min last stop) ∧
      (∀ y, start ≤ y → y ≤ stop → t'.at' "CO2_FF" y = t.at' "CO2" y ∧ t'.at' "CO2_AFOLU" y = t.at' "CO2.1" y ∧
        ∀ c, c ∉ ["CO2", "CO2.1", "CO2_FF", "CO2_AFOLU"] → t'.at' c y = t.at' c y) ∧
      (∀ c y, ¬ (start ≤ y ∧ y ≤ stop) → t'.at' c y = .error .keyError) := by
  obtain ⟨u, hu, hcols, hcon, hat⟩ := C49_cut hc hne h1 h2
  refine ⟨{ cols := u.cols.map renameEmission, idx := u.idx, cell := fun c y => u.cell (emissionSource c) y }, ?_, hcon, ?_, ?_⟩
  · unfold readEmissions
    rw [hu]
    rfl
  · have key : ∀ c, c ∈ t.cols.map renameEmission ↔ emissionSource c ∈ t.cols ∧ c ≠ "CO2" ∧ c ≠ "CO2.1" := by
      intro c
      rw [List.mem_map]
      constructor
      · rintro ⟨a, ha, rfl⟩
        unfold renameEmission
        by_cases e1 : a = "CO2"
        · subst e1; rw [if_pos rfl]; exact ⟨ha, by decide, by decide⟩
        · rw [if_neg e1]
          by_cases e2 : a = "CO2.1"
          · subst e2; rw [if_pos rfl]; exact ⟨ha, by decide, by decide⟩
          · rw [if_neg e2]
            refine ⟨?_, e1, e2⟩
            unfold emissionSource
            rw [if_neg (by rintro rfl; exact hn.1 ha), if_neg (by rintro rfl; exact hn.2 ha)]
            exact ha
      · rintro ⟨h3, h4, h5⟩
        refine ⟨emissionSource c, h3, ?_⟩
        unfold emissionSource renameEmission
        by_cases e1 : c = "CO2_FF"
        · subst e1; rfl
        · rw [if_neg e1]
          by_cases e2 : c = "CO2_AFOLU"
          · subst e2; rfl
          · rw [if_neg e2, if_neg h4, if_neg h5]
    have cellAt : ∀ c y, c ≠ "CO2" → c ≠ "CO2.1" → start ≤ y → y ≤ stop →
        Frame.at' { cols := u.cols.map renameEmission, idx := u.idx, cell := fun c y => u.cell (emissionSource c) y } c y =
          t.at' (emissionSource c) y := by
      intro c y h3 h4 h5 h6
      have e := hat (emissionSource c) y
      rw [if_pos ⟨h5, h6⟩] at e
      rw [← e]
      refine frame_at_congr ?_ rfl
      show c ∈ u.cols.map renameEmission ∧ y ∈ u.idx ↔ _
      rw [hcols, key]
      exact ⟨fun e => ⟨e.1.1, e.2⟩, fun e => ⟨⟨e.1, h3, h4⟩, e.2⟩⟩
    intro y h5 h6
    refine ⟨cellAt "CO2_FF" y (by decide) (by decide) h5 h6, cellAt "CO2_AFOLU" y (by decide) (by decide) h5 h6, ?_⟩
    intro c hc
    simp only [List.mem_cons, List.not_mem_nil, or_false, not_or] at hc
    rw [cellAt c y hc.1 hc.2.1 h5 h6]
    unfold emissionSource
    rw [if_neg hc.2.2.1, if_neg hc.2.2.2]
  · intro c y hy
    have hidx : u.idx = pyRange (max first start) (min last stop + 1) := hcon
    unfold Frame.at'
    simp only
    rw [if_neg]
    rintro ⟨-, h⟩
    rw [hidx, mem_pyRange] at h
    omega

variable [Add F] [Sub F] [Mul F] [Div F] [Neg F] [OfScientific F] [LT F] [DecidableLT F] [MathFn F]

/-- The years of the input handler are those of the configuration. -/
theorem run_reads_years {fs : Files F} {c : Dict (CfgVal F)} {ih : InputHandler.Handler F} (hc : WF c) (h : create fs c = .ok ih)
    {m n : ℤ} (hm : Dict.get? c "nystart" = some (.val (.int m))) (hn : Dict.get? c "nyend" = some (.val (.int n))) :
    ih.nystart = m ∧ ih.nyend = n := by
  obtain ⟨S⟩ := create_stages h
  have key : ∀ k ∈ ["nystart", "nyend"], ∀ z w : ℤ, Dict.get? c k = some (.val (.int z)) →
      cfgI (cutAndCheckCfg requiredCfg c usedCfg) k = .ok w → w = z := by
    intro k hk z w h1 h2
    have e : Dict.get? (cutAndCheckCfg requiredCfg c usedCfg) k = some (.val (.int z)) := by
      unfold cutAndCheckCfg
      refine checkNumericCfg_keep ?_ rfl
      rw [get?_cutCfg hc, h1]
      rw [has_iff, mem_keys_update]
      right
      show k ∈ ["nystart", "nyend", "emstart", "carbon_cycle_model", "thermal_model"]
      clear * - hk; revert k; decide
    unfold cfgI Dict.getE at h2
    rw [e] at h2
    simp only [bind_ok, PyVal.toI, Except.ok.injEq] at h2
    exact h2.symm
  exact ⟨key "nystart" (by simp) _ _ hm S.years1, key "nyend" (by simp) _ _ hn S.years2⟩

/-- **C49** The concentrations of a run: a configured file whose table covers the run years is cut to exactly the run
years of the configuration. -/
theorem C49_run {fs : Files F} {c : Dict (CfgVal F)} {ih : InputHandler.Handler F} (hc : WF c) (h : create fs c = .ok ih)
    {m n : ℤ} (hm : Dict.get? c "nystart" = some (.val (.int m))) (hn : Dict.get? c "nyend" = some (.val (.int n)))
    {p : String} (hf : FileIs c "concentrations" p) (hp : fs.present p = true) {t : Frame F} (ht : fs.table p = .ok t)
    {first last : ℤ} (hcon : Contiguous t first last) (h1 : first ≤ m) (h2 : m ≤ n) (h3 : n ≤ last) :
    ∃ t', getData fs ih "concentrations" = .ok (.table t') ∧ t'.cols = t.cols ∧ t'.idx = pyRange m (n + 1) ∧
      ∀ x y, m ≤ y → y ≤ n → t'.at' x y = t.at' x y := by
  obtain ⟨y1, y2⟩ := run_reads_years hc h hm hn
  obtain ⟨t', e1, e2, e3, e4⟩ := C49_cut (start := m) (stop := n) hcon (by omega) (by omega) (by omega)
  refine ⟨t', ?_, e2, ?_, ?_⟩
  · rw [C47_file_wins hc h (by decide) hf hp]
    unfold readFile
    rw [if_neg (by decide), if_neg (by decide), if_neg (by decide), if_neg (by decide), if_pos rfl, ht, y1, y2]
    simp only [bind_ok, e1]
    rfl
  · have : t'.idx = pyRange (max first m) (min last n + 1) := e3
    rw [this, max_eq_right h1, min_eq_right h3]
  · intro x y h5 h6
    rw [e4, if_pos ⟨h5, h6⟩]

/-! ## C50 -/

omit [Add F] [Sub F] [Mul F] [Div F] [Neg F] [OfScientific F] [LT F] [DecidableLT F] [MathFn F] in
/-- **C50** For runs from 1750 on: a row-per-year file is accepted exactly if it reaches the last run year, and then row
`i` of what is used is the row of year `start + i`. -/
theorem C50_aligned (rs : List (List F)) {start stop : ℤ} (h1 : 1750 ≤ start) (h2 : start ≤ stop) :
    (∀ rs', readYearRows rs start stop = .ok rs' → (rs'.length : ℤ) = stop - start + 1 ∧
      ∀ i : ℕ, (i : ℤ) ≤ stop - start → ∃ r, rowOfYear rs (start + i) = some r ∧ rs'[i]? = some r) ∧
    ((∃ r, rowOfYear rs stop = some r) ↔ ∃ rs', readYearRows rs start stop = .ok rs') := by
  have hn : (pyRange start (stop + 1)).length = (stop + 1 - start).toNat := pyRange_length _ _
  have hdf : (if 1750 < start then (rs.drop (start - 1750).toNat).take (pyRange start (stop + 1)).length
      else rs.take (pyRange start (stop + 1)).length) = (rs.drop (start - 1750).toNat).take (stop + 1 - start).toNat := by
    rw [hn]
    split
    · rfl
    · have : (start - 1750).toNat = 0 := by omega
      rw [this, List.drop_zero]
  have hread : readYearRows rs start stop =
      if ((rs.drop (start - 1750).toNat).take (stop + 1 - start).toNat).length = (stop + 1 - start).toNat then
        .ok ((rs.drop (start - 1750).toNat).take (stop + 1 - start).toNat) else .error .valueError := by
    unfold readYearRows
    simp only
    rw [hdf, hn]
  have hlen : ((rs.drop (start - 1750).toNat).take (stop + 1 - start).toNat).length = (stop + 1 - start).toNat ↔
      (stop - 1750).toNat < rs.length := by
    rw [List.length_take, List.length_drop]
    omega
  constructor
  · intro rs' h
    rw [hread] at h
    split at h
    · rename_i hl
      rw [Except.ok.injEq] at h
      subst h
      refine ⟨by rw [hl]; omega, ?_⟩
      intro i hi
      have hb := hlen.1 hl
      have hrow : rowOfYear rs (start + i) = rs[(start - 1750).toNat + i]? := by
        unfold rowOfYear
        rw [if_neg (by omega)]
        congr 1
        omega
      refine ⟨rs[(start - 1750).toNat + i]'(by omega), ?_, ?_⟩
      · rw [hrow, List.getElem?_eq_getElem]
      · rw [List.getElem?_take_of_lt (by omega), List.getElem?_drop, List.getElem?_eq_getElem]
    · cases h
  · have hrow : rowOfYear rs stop = rs[(stop - 1750).toNat]? := by
      unfold rowOfYear
      rw [if_neg (by omega)]
    rw [hrow, hread]
    constructor
    · rintro ⟨r, hr⟩
      obtain ⟨hb, -⟩ := List.getElem?_eq_some_iff.1 hr
      exact ⟨_, if_pos (hlen.2 hb)⟩
    · rintro ⟨rs', h⟩
      split at h
      · rename_i hl
        exact ⟨_, List.getElem?_eq_getElem (hlen.1 hl)⟩
      · cases h

omit [Add F] [Sub F] [Mul F] [Div F] [Neg F] [OfScientific F] [LT F] [DecidableLT F] [MathFn F] in
/-- **C50** A file that is too short is rejected with `ValueError`. -/
theorem C50_short (rs : List (List F)) {start stop : ℤ} (h1 : 1750 ≤ start) (h2 : start ≤ stop)
    (h : rowOfYear rs stop = none) : readYearRows rs start stop = .error .valueError := by
  have := (C50_aligned rs h1 h2).2
  cases hr : readYearRows rs start stop with
  | ok rs' =>
    obtain ⟨r, hr'⟩ := this.2 ⟨rs', hr⟩
    rw [h] at hr'; cases hr'
  | error e =>
    unfold readYearRows at hr
    simp only at hr
    generalize (if 1750 < start then _ else _ : List (List F)) = df at hr
    split at hr
    · cases hr
    · rw [Except.error.injEq] at hr; rw [← hr]

omit [Add F] [Sub F] [Mul F] [Div F] [Neg F] [OfScientific F] [LT F] [DecidableLT F] [MathFn F] in
/-- **C50** Runs that start before 1750 are accepted too, but shifted: the first year is given the row of 1750 and every later
year the row as many years after 1750. -/
theorem C50_early (rs : List (List F)) {start stop : ℤ} (h1 : start < 1750) (h2 : start ≤ stop) {rs' : List (List F)}
    (h : readYearRows rs start stop = .ok rs') :
    ∀ i : ℕ, (i : ℤ) ≤ stop - start → ∃ r, rowOfYear rs (1750 + i) = some r ∧ rs'[i]? = some r := by
  unfold readYearRows at h
  simp only [if_neg (show ¬ 1750 < start by omega)] at h
  rw [pyRange_length] at h
  split at h
  · rename_i hl
    rw [Except.ok.injEq] at h
    subst h
    intro i hi
    rw [List.length_take] at hl
    refine ⟨rs[i]'(by omega), ?_, ?_⟩
    · unfold rowOfYear
      rw [if_neg (by omega), show (1750 + (i : ℤ) - 1750).toNat = i by omega, List.getElem?_eq_getElem]
    · rw [List.getElem?_take_of_lt (by omega), List.getElem?_eq_getElem]
  · cases h

omit [Add F] [Sub F] [Mul F] [Div F] [Neg F] [OfScientific F] [LT F] [DecidableLT F] [MathFn F] in
theorem firstColumn_get {rs : List (List F)} {xs : List F} (h : firstColumn rs = .ok xs) (i : ℕ) {r : List F}
    (hr : rs[i]? = some r) : ∃ x, r.head? = some x ∧ xs[i]? = some x := by
  unfold firstColumn at h
  rw [mapM_ok] at h
  have h2 := congrArg (fun l => l[i]?) h
  simp only [List.getElem?_map, hr, Option.map_some] at h2
  cases hx : xs[i]? with
  | none => rw [hx] at h2; simp at h2
  | some x =>
    rw [hx] at h2
    simp only [Option.map_some, Option.some.injEq] at h2
    cases r with
    | nil => cases h2
    | cons a r =>
      rw [Except.ok.injEq] at h2
      exact ⟨x, by rw [← h2]; rfl, rfl⟩

theorem readFile_rows {fs : Files F} {ih : InputHandler.Handler F} {what p : String}
    (hw : what ∈ ["rf_luc", "rf_sun", "rf_volc_n", "rf_volc_s"]) {rs out : List (List F)} (hrs : fs.years p = .ok rs)
    (h : readFile fs ih what p = .ok (.rows out)) : readYearRows rs ih.nystart ih.nyend = .ok out := by
  have hne : what ≠ "forc" ∧ what ≠ "gaspam" ∧ what ≠ "nat_ch4" ∧ what ≠ "nat_n2o" ∧ what ≠ "concentrations" ∧ what ≠ "emissions" ∧
      ¬ (what = "perturb_em" ∨ what = "perturb_forc") := by
    clear * - hw; revert what; decide
  obtain ⟨n1, n2, n3, n4, n5, n6, n7⟩ := hne
  unfold readFile at h
  rw [if_neg n1, if_neg n2, if_neg n3, if_neg n4, if_neg n5, if_neg n6, if_neg n7, if_pos hw, hrs] at h
  simp only [bind_ok, bind_eq_ok] at h
  obtain ⟨r, h1, h2⟩ := h
  rw [pure_ok, Except.ok.injEq, Data.rows.injEq] at h2
  rw [h1, h2]

/-- **C50** The model object: with a configured land use or solar file, the value used for a year `y` of a run from 1750
on is the first entry of the row of year `y` of the file. -/
theorem C50_run {cops : CarbonOps F κ} {tops : ThermalOps F τ} {fs : Files F} {c : Dict (CfgVal F)} {d : Driver F κ}
    (hc : WF c) (h : build cops tops fs c = .ok d) (h1 : 1750 ≤ d.nystart) {what : String} {series : List F}
    (hw : (what = "rf_luc" ∧ series = d.luc) ∨ (what = "rf_sun" ∧ series = d.sun)) {p : String} (hf : FileIs c what p)
    (hp : fs.present p = true) {rs : List (List F)} (hrs : fs.years p = .ok rs) {y : ℤ} (hy1 : d.nystart ≤ y) (hy2 : y ≤ d.nyend) :
    ∃ r x, rowOfYear rs y = some r ∧ r.head? = some x ∧ series[(y - d.nystart).toNat]? = some x := by
  obtain ⟨B⟩ := built hc h
  have hk : what ∈ inputs ∧ what ∈ ["rf_luc", "rf_sun", "rf_volc_n", "rf_volc_s"] ∧ what ++ "_file" ∉ driverKeys := by
    rcases hw with ⟨rfl, -⟩ | ⟨rfl, -⟩ <;> decide
  have hf' : FileIs B.cfg what p := (B.same _ hk.2.2).trans hf
  have hg := C47_file_wins B.wf B.create hk.1 hf' hp
  obtain ⟨out, ho, hcol⟩ : ∃ out, getData fs B.ih what = .ok (.rows out) ∧ firstColumn out = .ok series := by
    rcases hw with ⟨rfl, rfl⟩ | ⟨rfl, rfl⟩
    · exact B.luc
    · exact B.sun
  rw [hg] at ho
  have hr := readFile_rows hk.2.1 hrs ho
  rw [← B.start, ← B.stop] at hr
  obtain ⟨-, hrow⟩ := (C50_aligned rs h1 (by omega)).1 out hr
  obtain ⟨r, e1, e2⟩ := hrow (y - d.nystart).toNat (by omega)
  obtain ⟨x, e3, e4⟩ := firstColumn_get hcol _ e2
  refine ⟨r, x, ?_, e3, e4⟩
  rw [← e1]
  congr 1
  omega

/-- **C50** The model object, for a run from before 1750: the value used for the year `y` is the one of the file for the year
`y + (1750 - nystart)`. -/
theorem C50_early_run {cops : CarbonOps F κ} {tops : ThermalOps F τ} {fs : Files F} {c : Dict (CfgVal F)} {d : Driver F κ}
    (hc : WF c) (h : build cops tops fs c = .ok d) (h1 : d.nystart < 1750) {what : String} {series : List F}
    (hw : (what = "rf_luc" ∧ series = d.luc) ∨ (what = "rf_sun" ∧ series = d.sun)) {p : String} (hf : FileIs c what p)
    (hp : fs.present p = true) {rs : List (List F)} (hrs : fs.years p = .ok rs) {y : ℤ} (hy1 : d.nystart ≤ y) (hy2 : y ≤ d.nyend) :
    ∃ r x, rowOfYear rs (y + (1750 - d.nystart)) = some r ∧ r.head? = some x ∧ series[(y - d.nystart).toNat]? = some x := by
  obtain ⟨B⟩ := built hc h
  have hk : what ∈ inputs ∧ what ∈ ["rf_luc", "rf_sun", "rf_volc_n", "rf_volc_s"] ∧ what ++ "_file" ∉ driverKeys := by
    rcases hw with ⟨rfl, -⟩ | ⟨rfl, -⟩ <;> decide
  have hf' : FileIs B.cfg what p := (B.same _ hk.2.2).trans hf
  have hg := C47_file_wins B.wf B.create hk.1 hf' hp
  obtain ⟨out, ho, hcol⟩ : ∃ out, getData fs B.ih what = .ok (.rows out) ∧ firstColumn out = .ok series := by
    rcases hw with ⟨rfl, rfl⟩ | ⟨rfl, rfl⟩
    · exact B.luc
    · exact B.sun
  rw [hg] at ho
  have hr := readFile_rows hk.2.1 hrs ho
  rw [← B.start, ← B.stop] at hr
  obtain ⟨r, e1, e2⟩ := C50_early rs h1 (by omega) hr (y - d.nystart).toNat (by omega)
  obtain ⟨x, e3, e4⟩ := firstColumn_get hcol _ e2
  refine ⟨r, x, ?_, e3, e4⟩
  rwa [show (1750 : ℤ) + ((y - d.nystart).toNat : ℤ) = y + (1750 - d.nystart) by omega] at e1

/-- **C50** The same for volcanic forcing, with all columns of the row. -/
theorem C50_run_volc {cops : CarbonOps F κ} {tops : ThermalOps F τ} {fs : Files F} {c : Dict (CfgVal F)} {d : Driver F κ}
    (hc : WF c) (h : build cops tops fs c = .ok d) (h1 : 1750 ≤ d.nystart) {what : String} {series : List (List F)}
    (hw : (what = "rf_volc_n" ∧ series = d.volcN) ∨ (what = "rf_volc_s" ∧ series = d.volcS)) {p : String} (hf : FileIs c what p)
    (hp : fs.present p = true) {rs : List (List F)} (hrs : fs.years p = .ok rs) {y : ℤ} (hy1 : d.nystart ≤ y) (hy2 : y ≤ d.nyend) :
    ∃ r, rowOfYear rs y = some r ∧ series[(y - d.nystart).toNat]? = some r := by
  obtain ⟨B⟩ := built hc h
  have hk : what ∈ inputs ∧ what ∈ ["rf_luc", "rf_sun", "rf_volc_n", "rf_volc_s"] ∧ what ++ "_file" ∉ driverKeys := by
    rcases hw with ⟨rfl, -⟩ | ⟨rfl, -⟩ <;> decide
  have hf' : FileIs B.cfg what p := (B.same _ hk.2.2).trans hf
  have hg := C47_file_wins B.wf B.create hk.1 hf' hp
  have ho : getData fs B.ih what = .ok (.rows series) := by
    rcases hw with ⟨rfl, rfl⟩ | ⟨rfl, rfl⟩
    · exact B.volcN
    · exact B.volcS
  rw [hg] at ho
  have hr := readFile_rows hk.2.1 hrs ho
  rw [← B.start, ← B.stop] at hr
  obtain ⟨-, hrow⟩ := (C50_aligned rs h1 (by omega)).1 series hr
  obtain ⟨r, e1, e2⟩ := hrow (y - d.nystart).toNat (by omega)
  refine ⟨r, ?_, e2⟩
  rw [← e1]
  congr 1
  omega

end

/-! ## Examples -/
open Verif.Exec Verif.Model.ThermalInst

/-- The concentration file of the small configuration covers more than the run years. -/
example : WF (toyCfg []) ∧ (∃ ih, create toyFiles (toyCfg []) = .ok ih) ∧ FileIs (toyCfg []) "concentrations" "conc.txt" ∧
    Dict.get? (toyCfg []) "nystart" = some (.val (.int 2000)) ∧ Dict.get? (toyCfg []) "nyend" = some (.val (.int 2004)) ∧
    toyFiles.table "conc.txt" = .ok fileConc ∧ Contiguous fileConc 1995 2020 := by
  refine ⟨?_, ?_, rfl, rfl, rfl, ?_, rfl⟩
  · unfold WF; decide +kernel
  · rw [← okB_iff]; decide +kernel
  · rfl

example : Contiguous fileEmis 1995 2020 ∧ "CO2_FF" ∉ fileEmis.cols ∧ "CO2_AFOLU" ∉ fileEmis.cols := ⟨rfl, by decide, by decide⟩

/-- A solar file in use: the run object has the row of 2003 at position 3. -/
example : ∃ d, build toyCarbon twoLayerOps toyFiles (toyCfg [("sunvolc", .val (.int 1)), ("rf_sun_file", str "sun.txt")]) = .ok d ∧
    1750 ≤ d.nystart ∧ toyFiles.present "sun.txt" = true ∧ d.sun[3]? = some (2003 / 100) := by
  have hb : okB (build toyCarbon twoLayerOps toyFiles (toyCfg [("sunvolc", .val (.int 1)), ("rf_sun_file", str "sun.txt")])) = true := by
    decide +kernel
  obtain ⟨d, hd⟩ := (okB_iff _).1 hb
  have e : (match build toyCarbon twoLayerOps toyFiles (toyCfg [("sunvolc", .val (.int 1)), ("rf_sun_file", str "sun.txt")]) with
      | .ok d => (d.nystart, d.sun[3]?)
      | .error _ => (0, none)) = (2000, some (2003 / 100)) := by decide +kernel
  rw [hd] at e
  have e' : (d.nystart, d.sun[3]?) = (2000, some (2003 / 100)) := e
  rw [Prod.mk.injEq] at e'
  exact ⟨d, hd, by omega, by decide +kernel, e'.2⟩

/-- A run from 1740: the year 1743 is given the row of 1753. -/
example : ∃ rs', readYearRows (fileRows 1 252) 1740 1745 = .ok rs' ∧ rs'[3]? = rowOfYear (fileRows 1 252) 1753 := by
  have hb : okB (readYearRows (fileRows 1 252) 1740 1745) = true := by decide +kernel
  obtain ⟨rs', h⟩ := (okB_iff _).1 hb
  obtain ⟨r, e1, e2⟩ := C50_early _ (by decide) (by decide) h 3 (by decide)
  exact ⟨rs', h, by rw [e2]; exact e1.symm⟩

/-- A file that ends in 2001 is too short for a run to 2004. -/
example : rowOfYear (fileRows 1 252) 2004 = none := by decide +kernel

end Verif.Props
