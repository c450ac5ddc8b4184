import Verif.Spec.Perturb
import Verif.Py.RealInst
import Verif.Lemmas.Except
import Mathlib.Tactic.Ring
import Mathlib.Tactic.Linarith

namespace Verif.Model
open Verif.Py Verif.Spec

theorem hemisphericForcing_eq (tracer : String) (q nh sh : ℝ) :
    hemisphericForcing tracer q nh sh = (nh + q * nhWeight tracer, sh + q * (2 - nhWeight tracer)) := by
  unfold hemisphericForcing nhWeight aerosolHemTracers
  simp only [List.mem_cons, List.not_mem_nil, or_false]
  split_ifs <;> simp only [Prod.mk.injEq] <;> constructor <;> norm_num

theorem foldl_addForcingPert (keys : List String) (idx : ℕ) (rows : List (PertRow ℝ))
    (s : ForcAcc ℝ) :
    let s' := rows.foldl (addForcingPertStep keys idx) s
    let known := ((rows.filter (fun r => r.component ∈ keys)).map PertRow.value).sum
    s'.tot = s.tot + known ∧
    s'.nh + s'.sh = s.nh + s.sh + 2 * known ∧
    (∀ t i, s'.forc t i = s.forc t i +
      if t ∈ keys ∧ i = idx then
        ((rows.filter (fun r => r.component = t)).map PertRow.value).sum else 0) := by
  induction rows generalizing s with
  | nil => simp
  | cons r rows ih =>
    simp only [List.foldl_cons]
    obtain ⟨h1, h2, h3⟩ := ih (addForcingPertStep keys idx s r)
    refine ⟨?_, ?_, ?_⟩
    · rw [h1]
      by_cases hk : r.component ∈ keys
      · simp [addForcingPertStep, hk]; ring
      · simp [addForcingPertStep, hk]
    · rw [h2]
      by_cases hk : r.component ∈ keys
      · simp only [addForcingPertStep, hk, not_true_eq_false, if_false, hemisphericForcing_eq]
        simp [hk]; ring
      · simp [addForcingPertStep, hk]
    · intro t i
      rw [h3]
      by_cases hk : r.component ∈ keys
      · by_cases ht : r.component = t
        · subst ht
          by_cases hi : i = idx
          · simp [addForcingPertStep, hk, setForc, hi]; ring
          · simp [addForcingPertStep, hk, setForc, hi]
        · have ht' : ¬ t = r.component := fun e => ht e.symm
          simp [addForcingPertStep, hk, setForc, ht, ht']
      · by_cases ht : r.component = t
        · subst ht; simp [addForcingPertStep, hk]
        · simp [addForcingPertStep, hk, ht]

/-- Successful `perturb_emissions`. -/
theorem perturbEmissions_ok {rows : List (PertRow ℝ)} {t t' : Table ℝ}
    (h : perturbEmissions t rows = .ok t') :
    t'.cols = t.cols ∧
    ∀ c y, t'.val c y = (t.val c y).map
      (· + ((rows.filter (fun r => pertTarget t r.component = c ∧ r.year = y)).map
        PertRow.value).sum) := by
  unfold perturbEmissions at h
  induction rows generalizing t with
  | nil =>
    simp [List.foldlM, pure_ok] at h
    subst h
    refine ⟨rfl, ?_⟩
    intro c y; cases t.val c y <;> simp
  | cons r rows ih =>
    rw [List.foldlM_cons, bind_eq_ok] at h
    obtain ⟨t1, hs, h⟩ := h
    unfold perturbEmissionsStep at hs
    dsimp only at hs
    rw [bind_eq_ok] at hs
    obtain ⟨old, ha, hs⟩ := hs
    rw [pure_ok, Except.ok.injEq] at hs
    have hold := (at'_eq_ok.1 ha).2
    obtain ⟨hc, hv⟩ := ih h
    have hcols : t1.cols = t.cols := by rw [← hs]; rfl
    have htarget : ∀ s, pertTarget t1 s = pertTarget t s := by
      intro s; unfold pertTarget; rw [hcols]
    refine ⟨hc.trans hcols, ?_⟩
    intro c y
    rw [hv]
    simp only [htarget]
    by_cases hcell : pertTarget t r.component = c ∧ r.year = y
    · obtain ⟨e1, e2⟩ := hcell
      subst e1; subst e2
      rw [← hs]
      simp [Table.setAt, hold]; ring
    · have : t1.val c y = t.val c y := by
        rw [← hs]
        simp only [Table.setAt]
        rw [if_neg]
        rintro ⟨e1, e2⟩
        exact hcell ⟨e1.symm, e2.symm⟩
      rw [this]
      simp only [List.filter_cons, hcell, decide_false, Bool.false_eq_true, if_false]

theorem perturbEmissions_isOk {F : Type} [Add F] (rows : List (PertRow F)) (t : Table F) :
    (∃ t', perturbEmissions t rows = .ok t') ↔
      ∀ r ∈ rows, t.HasCell (pertTarget t r.component) r.year := by
  unfold perturbEmissions
  induction rows generalizing t with
  | nil => simp [List.foldlM, pure_ok]
  | cons r rows ih =>
    rw [List.foldlM_cons]
    cases ha : t.at' (pertTarget t r.component) r.year with
    | error e =>
      have hno : ¬ t.HasCell (pertTarget t r.component) r.year := by
        rw [← at'_isOk]; rintro ⟨v, hv⟩; rw [ha] at hv; cases hv
      constructor
      · rintro ⟨t', h⟩
        simp [perturbEmissionsStep, ha, bind_error] at h
      · intro h; exact absurd (h r (by simp)) hno
    | ok old =>
      have hyes : t.HasCell (pertTarget t r.component) r.year := (at'_isOk _ _ _).1 ⟨old, ha⟩
      have hstep : perturbEmissionsStep t r =
          .ok (t.setAt (pertTarget t r.component) r.year (old + r.value)) := by
        simp [perturbEmissionsStep, ha, bind_ok, pure_ok]
      rw [hstep, bind_ok, ih]
      constructor
      · intro h q hq
        rcases List.mem_cons.1 hq with e | hq
        · subst e; exact hyes
        · have := h q hq
          rw [hasCell_setAt _ _ _ _ hyes] at this
          exact this
      · intro h q hq
        rw [hasCell_setAt _ _ _ _ hyes]
        exact h q (List.mem_cons_of_mem _ hq)

end Verif.Model

namespace Verif.Model
open Verif.Py Verif.Spec

/-- The rows of one gas: read everything from `t0`, then write in order. -/
theorem vanillaGas_aux {F : Type} [Add F] (t0 : Table F) (gas : String) (here : List (PertRow F)) :
    ∀ (new : List (ℤ × F)) (t : Table F),
    here.mapM (fun r => do
      let old ← t0.at' gas r.year
      return (r.year, old + r.value)) = .ok new →
    (new.foldl (fun t p => t.setAt gas p.1 p.2) t).cols = t.cols ∧
    ∀ c y, (new.foldl (fun t p => t.setAt gas p.1 p.2) t).val c y =
      if c = gas then
        match (here.filter (fun r => r.year = y)).getLast? with
        | none => t.val c y
        | some r => (t0.val gas y).map (· + r.value)
      else t.val c y := by
  induction here with
  | nil =>
    intro new t h
    simp [pure_ok] at h
    subst h
    refine ⟨rfl, ?_⟩
    intro c y; simp
  | cons r here ih =>
    intro new t h
    rw [List.mapM_cons, bind_eq_ok] at h
    obtain ⟨p, hp, h⟩ := h
    rw [bind_eq_ok] at hp
    obtain ⟨old, hold, hp⟩ := hp
    rw [pure_ok, Except.ok.injEq] at hp
    rw [bind_eq_ok] at h
    obtain ⟨new', hnew, h⟩ := h
    rw [pure_ok, Except.ok.injEq] at h
    subst h; subst hp
    obtain ⟨h1, h2⟩ := ih new' (t.setAt gas r.year (old + r.value)) hnew
    rw [List.foldl_cons]
    refine ⟨h1.trans rfl, ?_⟩
    intro c y
    rw [h2]
    have hold' := (at'_eq_ok.1 hold).2
    by_cases hc : c = gas
    · subst hc
      simp only [if_true]
      by_cases hy : r.year = y
      · subst hy
        rw [List.filter_cons_of_pos (by simp)]
        cases hl : (here.filter (fun q => q.year = r.year)).getLast? with
        | none =>
          rw [List.getLast?_eq_none_iff] at hl
          simp [hl, Table.setAt, hold']
        | some q => simp [List.getLast?_cons, hl]
      · have hy' : ¬ y = r.year := fun e => hy e.symm
        rw [List.filter_cons_of_neg (by simpa using hy)]
        cases (here.filter (fun q => q.year = y)).getLast? with
        | none => simp [Table.setAt, hy']
        | some q => rfl
    · simp [hc, Table.setAt]

theorem vanillaGas_ok {F : Type} [Add F] {rows : List (PertRow F)} {t t' : Table F} {gas : String}
    (h : addForcingPertVanillaGas rows t gas = .ok t') :
    t'.cols = t.cols ∧
    ∀ c y, t'.val c y =
      if c = gas then
        match (rows.filter (fun r => r.component = gas ∧ r.year = y)).getLast? with
        | none => t.val c y
        | some r => (t.val gas y).map (· + r.value)
      else t.val c y := by
  unfold addForcingPertVanillaGas at h
  dsimp only at h
  rw [bind_eq_ok] at h
  obtain ⟨new, hnew, h⟩ := h
  rw [pure_ok, Except.ok.injEq] at h
  subst h
  obtain ⟨h1, h2⟩ := vanillaGas_aux t gas _ new t hnew
  refine ⟨h1, ?_⟩
  intro c y
  rw [h2, List.filter_filter]
  have : (fun r : PertRow F => decide (r.year = y) && decide (r.component = gas)) =
      (fun r => decide (r.component = gas ∧ r.year = y)) := by
    funext r; simp [and_comm]
  rw [this]

/-- Full description of `add_forcing_pert_for_vanilla`: for each (gas, year) the last row wins. -/
theorem vanilla_ok {F : Type} [Add F] {rows : List (PertRow F)} {t t' : Table F}
    (hcols : t.cols.Nodup) (h : addForcingPertVanilla rows t = .ok t') :
    t'.cols = t.cols ∧
    ∀ c ∈ t.cols, ∀ y, t'.val c y =
      match (rows.filter (fun r => r.component = c ∧ r.year = y)).getLast? with
      | none => t.val c y
      | some r => (t.val c y).map (· + r.value) := by
  unfold addForcingPertVanilla at h
  -- generalise over the list of gases
  have key : ∀ (gs : List String) (t1 t2 : Table F), gs.Nodup →
      gs.foldlM (addForcingPertVanillaGas rows) t1 = .ok t2 →
      t2.cols = t1.cols ∧
      ∀ c y, t2.val c y =
        if c ∈ gs then
          match (rows.filter (fun r => r.component = c ∧ r.year = y)).getLast? with
          | none => t1.val c y
          | some r => (t1.val c y).map (· + r.value)
        else t1.val c y := by
    intro gs
    induction gs with
    | nil =>
      intro t1 t2 _ h
      simp [List.foldlM, pure_ok] at h
      subst h
      exact ⟨rfl, by simp⟩
    | cons g gs ih =>
      intro t1 t2 hnd h
      rw [List.foldlM_cons, bind_eq_ok] at h
      obtain ⟨t1', hg, h⟩ := h
      obtain ⟨c1, v1⟩ := vanillaGas_ok hg
      rw [List.nodup_cons] at hnd
      obtain ⟨c2, v2⟩ := ih t1' t2 hnd.2 h
      refine ⟨c2.trans c1, ?_⟩
      intro c y
      rw [v2, v1]
      by_cases hc : c = g
      · subst hc
        simp [hnd.1]
      · simp [hc]
  obtain ⟨hc, hv⟩ := key _ t t' (hcols.filter _) h
  refine ⟨hc, ?_⟩
  intro c hcm y
  rw [hv]
  by_cases hin : c ∈ rows.map PertRow.component
  · simp only [List.mem_filter, hcm, hin, decide_true, and_self, if_true]
  · simp only [List.mem_filter, hcm, hin, decide_false, and_false, Bool.false_eq_true, if_false]
    have : rows.filter (fun r => r.component = c ∧ r.year = y) = [] := by
      rw [List.filter_eq_nil_iff]
      intro r hr
      simp only [decide_eq_true_eq, not_and]
      intro e
      exact absurd (List.mem_map.2 ⟨r, hr, e⟩) hin
    rw [this]; rfl

end Verif.Model
