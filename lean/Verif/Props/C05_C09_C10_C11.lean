import Verif.Lemmas.Perturb
import Mathlib.Algebra.BigOperators.Group.List.Basic

/-!
# C05, C09, C10, C11: hemispheric split and perturbations (`perturbations.py`), exact arithmetic
-/

namespace Verif.Props
open Verif.Py Verif.Model Verif.Spec

/-! ## C05 hemispheric weighting -/

/-- C05: for every component name the two hemispheric increments have mean exactly `q`. -/
theorem C05_mean (tracer : String) (q nh sh : ℝ) :
    (((hemisphericForcing tracer q nh sh).1 - nh) + ((hemisphericForcing tracer q nh sh).2 - sh)) / 2
      = q := by
  rw [hemisphericForcing_eq]; ring

/-- C05: the northern increment is the documented weight times `q` (in particular components
outside the weighted groups are split equally, see `nhWeight`). -/
theorem C05_weights (tracer : String) (q nh sh : ℝ) :
    hemisphericForcing tracer q nh sh =
      (nh + q * nhWeight tracer, sh + q * (2 - nhWeight tracer)) :=
  hemisphericForcing_eq tracer q nh sh

/-- Non-vacuity / concrete values: a listed and an unlisted component. -/
example : hemisphericForcing "OC" (1 : ℝ) 0 0 = (1.47, 0.53) := by
  rw [hemisphericForcing_eq]; norm_num [nhWeight]
example : hemisphericForcing "CFC-11" (1 : ℝ) 0 0 = (1, 1) := by
  rw [hemisphericForcing_eq]; simp [nhWeight]; norm_num

/-! ## C09 forcing perturbations of year-by-year components -/

/-- C09: the total of year `yr` moves by exactly the sum of the rows of that year whose component is
known. -/
theorem C09_total (rows : List (PertRow ℝ)) (keys : List String) (y0 yr : ℤ) (s : ForcAcc ℝ) :
    (addForcingPert rows keys y0 yr s).tot = s.tot + pertSumKnown rows keys yr := by
  unfold addForcingPert pertSumKnown
  rw [(foldl_addForcingPert keys _ _ s).1, List.filter_filter]
  simp only [Bool.decide_and]

/-- C09: the hemispheric mean moves by the same amount. -/
theorem C09_hemispheric_mean (rows : List (PertRow ℝ)) (keys : List String) (y0 yr : ℤ)
    (s : ForcAcc ℝ) :
    ((addForcingPert rows keys y0 yr s).nh + (addForcingPert rows keys y0 yr s).sh) / 2 =
      (s.nh + s.sh) / 2 + pertSumKnown rows keys yr := by
  unfold addForcingPert pertSumKnown
  rw [(foldl_addForcingPert keys _ _ s).2.1, List.filter_filter]
  simp only [Bool.decide_and]
  ring

/-- C09: a known component moves, in the perturbed year only, by the sum of its own rows. -/
theorem C09_component (rows : List (PertRow ℝ)) (keys : List String) (y0 yr : ℤ) (s : ForcAcc ℝ)
    (t : String) (ht : t ∈ keys) :
    (addForcingPert rows keys y0 yr s).forc t (yr - y0).toNat =
      s.forc t (yr - y0).toNat + pertSum rows t yr := by
  unfold addForcingPert pertSum
  rw [(foldl_addForcingPert keys _ _ s).2.2, List.filter_filter]
  simp only [ht, and_self, if_true, Bool.decide_and]

/-- C09: other years and unknown components are untouched. -/
theorem C09_frame (rows : List (PertRow ℝ)) (keys : List String) (y0 yr : ℤ) (s : ForcAcc ℝ)
    (t : String) (i : ℕ) (h : t ∉ keys ∨ i ≠ (yr - y0).toNat) :
    (addForcingPert rows keys y0 yr s).forc t i = s.forc t i := by
  unfold addForcingPert
  rw [(foldl_addForcingPert keys _ _ s).2.2]
  have : ¬ (t ∈ keys ∧ i = (yr - y0).toNat) := by
    rintro ⟨a, b⟩; rcases h with h | h
    · exact h a
    · exact h b
  simp [this]

/-- C09: the order of the rows of the perturbation table does not matter for components, total and
hemispheric mean. -/
theorem C09_order (rows rows' : List (PertRow ℝ)) (hp : rows.Perm rows') (keys : List String)
    (y0 yr : ℤ) (s : ForcAcc ℝ) :
    (addForcingPert rows keys y0 yr s).tot = (addForcingPert rows' keys y0 yr s).tot ∧
    (addForcingPert rows keys y0 yr s).nh + (addForcingPert rows keys y0 yr s).sh =
      (addForcingPert rows' keys y0 yr s).nh + (addForcingPert rows' keys y0 yr s).sh ∧
    (addForcingPert rows keys y0 yr s).forc = (addForcingPert rows' keys y0 yr s).forc := by
  have hf := hp.filter (fun r => decide (r.year = yr))
  have hs : ∀ p : PertRow ℝ → Bool,
      (((rows.filter (fun r => decide (r.year = yr))).filter p).map PertRow.value).sum =
      (((rows'.filter (fun r => decide (r.year = yr))).filter p).map PertRow.value).sum :=
    fun p => ((hf.filter p).map _).sum_eq
  unfold addForcingPert
  obtain ⟨a1, a2, a3⟩ := foldl_addForcingPert keys (yr - y0).toNat
    (rows.filter (fun r => decide (r.year = yr))) s
  obtain ⟨b1, b2, b3⟩ := foldl_addForcingPert keys (yr - y0).toNat
    (rows'.filter (fun r => decide (r.year = yr))) s
  refine ⟨by rw [a1, b1, hs], by rw [a2, b2, hs], ?_⟩
  funext t i
  rw [a3, b3, hs]

/-- Non-vacuity: two rows for the same component and year accumulate. -/
example : (addForcingPert [⟨"OTHER", 1850, (1 : ℝ)⟩, ⟨"XXX", 1850, 7⟩, ⟨"OTHER", 1850, 2⟩]
    ["CO2", "OTHER"] 1750 1850 ⟨0, 0, 0, fun _ _ => 0⟩).tot = 3 := by
  rw [C09_total]; simp [pertSumKnown]; norm_num

/-! ## C10 forcing perturbations of pre-computed gases -/

/-- C10 (what the code does, all tables): for every (gas, year) the *last* matching row is added,
earlier ones are lost. Holds for every number type. -/
theorem C10_last_row_wins {F : Type} [Add F] {rows : List (PertRow F)} {t t' : Table F}
    (hcols : t.cols.Nodup) (h : addForcingPertVanilla rows t = .ok t') :
    ∀ c ∈ t.cols, ∀ y, t'.val c y =
      match (rows.filter (fun r => r.component = c ∧ r.year = y)).getLast? with
      | none => t.val c y
      | some r => (t.val c y).map (· + r.value) := (vanilla_ok hcols h).2

/-- C10 (partial: needs at most one row per gas and year): the perturbed forcing is the old one plus
the sum of the matching rows. -/
theorem C10_accumulates_partial {rows : List (PertRow ℝ)} {t t' : Table ℝ} (hcols : t.cols.Nodup)
    (h : addForcingPertVanilla rows t = .ok t')
    (huniq : ∀ c y, (rows.filter (fun r => r.component = c ∧ r.year = y)).length ≤ 1)
    (c : String) (hc : c ∈ t.cols) (y : ℤ) :
    t'.val c y = (t.val c y).map (· + pertSum rows c y) := by
  rw [C10_last_row_wins hcols h c hc y]
  unfold pertSum
  have := huniq c y
  match hl : rows.filter (fun r => r.component = c ∧ r.year = y) with
  | [] => rw [hl]; cases t.val c y <;> simp
  | [r] => rw [hl]; simp
  | a :: b :: l => rw [hl] at this; simp at this

/-- The one-cell table and two-row perturbation used as witness. -/
def exTable : Table ℝ := ⟨["HFC125"], fun c y => if c = "HFC125" ∧ y = 2000 then some 0 else none⟩
def exRows : List (PertRow ℝ) := [⟨"HFC125", 2000, 1⟩, ⟨"HFC125", 2000, 2⟩]

theorem exVanilla : ∃ t', addForcingPertVanilla exRows exTable = .ok t' := by
  simp [addForcingPertVanilla, exRows, exTable, addForcingPertVanillaGas, Table.at',
    List.foldlM, bind_ok, pure_ok, List.mapM_cons]

/-- C10 as stated is false of the code: repeated rows do not accumulate. -/
theorem C10_false :
    ¬ ∀ (rows : List (PertRow ℝ)) (t t' : Table ℝ), t.cols.Nodup →
      addForcingPertVanilla rows t = .ok t' →
      ∀ c ∈ t.cols, ∀ y, t'.val c y = (t.val c y).map (· + pertSum rows c y) := by
  intro hall
  obtain ⟨t', ht⟩ := exVanilla
  have hnd : exTable.cols.Nodup := by simp [exTable]
  have h1 := hall exRows exTable t' hnd ht "HFC125" (by simp [exTable]) 2000
  have h2 := C10_last_row_wins hnd ht "HFC125" (by simp [exTable]) 2000
  rw [h1] at h2
  simp [exRows, exTable, pertSum, List.getLast?] at h2

/-- Non-vacuity of `C10_accumulates_partial`: one row per gas and year. -/
example : ∃ t', addForcingPertVanilla [⟨"HFC125", 2000, (1 : ℝ)⟩] exTable = .ok t' ∧
    t'.val "HFC125" 2000 = some (0 + 1) := by
  refine ⟨_, by
    simp [addForcingPertVanilla, exTable, addForcingPertVanillaGas, Table.at',
    List.foldlM, bind_ok, pure_ok, List.mapM_cons]; rfl, ?_⟩
  simp [Table.setAt]

/-! ## C11 emission perturbations -/

/-- C11: which column a row is meant for. -/
def emissionTarget (cols : List String) (component : String) : String :=
  if component = "CO2" ∧ ¬ "CO2" ∈ cols then "CO2_FF" else component

/-- C11: after a successful call every cell is its old value plus the sum of all rows meant for it
(cells without rows are unchanged, missing cells stay missing), and the columns are the same. -/
theorem C11_value {rows : List (PertRow ℝ)} {t t' : Table ℝ}
    (h : perturbEmissions t rows = .ok t') :
    t'.cols = t.cols ∧ ∀ c y, t'.val c y = (t.val c y).map
      (· + ((rows.filter (fun r => emissionTarget t.cols r.component = c ∧ r.year = y)).map
        PertRow.value).sum) := perturbEmissions_ok h

/-- C11: the call succeeds exactly when every row's target cell exists (otherwise `KeyError`); any
number type. -/
theorem C11_ok_iff {F : Type} [Add F] (rows : List (PertRow F)) (t : Table F) :
    (∃ t', perturbEmissions t rows = .ok t') ↔
      ∀ r ∈ rows, t.HasCell (emissionTarget t.cols r.component) r.year :=
  perturbEmissions_isOk rows t

/-- C11: row order is irrelevant. -/
theorem C11_order {rows rows' : List (PertRow ℝ)} (hp : rows.Perm rows') {t t1 t2 : Table ℝ}
    (h1 : perturbEmissions t rows = .ok t1) (h2 : perturbEmissions t rows' = .ok t2) : t1 = t2 := by
  obtain ⟨c1, v1⟩ := perturbEmissions_ok h1
  obtain ⟨c2, v2⟩ := perturbEmissions_ok h2
  have : t1.val = t2.val := by
    funext c y
    rw [v1, v2, ((hp.filter _).map _).sum_eq]
  cases t1; cases t2; simp_all

/-- Constructing `n` models one after the other with the same in-memory emission table and the same
perturbation rows (concentrations_emissions_handler.py:193-196: the table returned by `get_data` is
the caller's object and is perturbed in place): the caller's table after `n` constructions. -/
noncomputable def constructTimes (t : Table ℝ) (rows : List (PertRow ℝ)) :
    ℕ → Except PyErr (Table ℝ)
  | 0 => .ok t
  | n + 1 => do
    let t' ← constructTimes t rows n
    perturbEmissions t' rows

/-- Finding: the perturbation is applied once per constructed model, so the table used by the n-th
model is the original plus n times the perturbation. -/
theorem C11_repeated_construction (t : Table ℝ) (rows : List (PertRow ℝ)) (n : ℕ) (t' : Table ℝ)
    (h : constructTimes t rows n = .ok t') (c : String) (y : ℤ) :
    t'.val c y = (t.val c y).map
      (· + n * ((rows.filter (fun r => emissionTarget t.cols r.component = c ∧ r.year = y)).map
        PertRow.value).sum) ∧ t'.cols = t.cols := by
  induction n generalizing t' with
  | zero => cases h; cases t.val c y <;> simp
  | succ n ih =>
    unfold constructTimes at h
    rw [bind_eq_ok] at h
    obtain ⟨t1, h1, h2⟩ := h
    obtain ⟨hv1, hc1⟩ := ih t1 h1
    obtain ⟨hc2, hv2⟩ := C11_value h2
    refine ⟨?_, hc2.trans hc1⟩
    rw [hv2, hv1, hc1, Option.map_map]
    congr 1
    funext x
    simp only [Function.comp, Nat.cast_add, Nat.cast_one]
    ring

/-- Non-vacuity for C11. -/
example : ∃ t', perturbEmissions (⟨["CO2_FF"], fun c y => if c = "CO2_FF" ∧ y = 2000 then some 3 else none⟩ : Table ℝ)
    [⟨"CO2", 2000, 1⟩, ⟨"CO2_FF", 2000, 2⟩] = .ok t' ∧ t'.val "CO2_FF" 2000 = some 6 := by
  obtain ⟨t', h⟩ := (C11_ok_iff [⟨"CO2", 2000, (1:ℝ)⟩, ⟨"CO2_FF", 2000, 2⟩]
    (⟨["CO2_FF"], fun c y => if c = "CO2_FF" ∧ y = 2000 then some 3 else none⟩ : Table ℝ)).2
    (by intro r hr; fin_cases hr <;> simp [Table.HasCell, emissionTarget])
  refine ⟨t', h, ?_⟩
  rw [(C11_value h).2]
  norm_num [emissionTarget, List.filter_cons]

end Verif.Props
