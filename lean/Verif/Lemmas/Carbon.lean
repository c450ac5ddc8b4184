import Verif.Model.BackCalc
import Verif.Py.RealInst
import Mathlib.Algebra.BigOperators.Intervals
import Mathlib.Tactic.FieldSimp

/-!
# Helper lemmas for the default carbon cycle
-/

namespace Verif.Model.Carbon
open Verif.Py

/-! ## any number type: what a sub-step reads and writes -/
section
variable {F : Type} [Add F] [Sub F] [Mul F] [Div F] [Neg F] [OfScientific F] [LT F] [DecidableLT F]
  [MathFn F]
variable (p : Pams F)

theorem fsum_map_congr {f g : Nat → F} {n : Nat} (h : ∀ j, j < n → f j = g j) :
    fsum ((List.range n).map f) = fsum ((List.range n).map g) := by
  congr 1
  apply List.map_congr_left
  intro j hj
  exact h j (List.mem_range.1 hj)

/-- `sumf` at `it` only reads entries `1..it-1`. -/
theorem sumf_congr {d d' : Nat → F} {it : Nat} (h : ∀ j, 0 < j → j < it → d j = d' j) :
    sumf p d it = sumf p d' it := by
  unfold sumf
  apply fsum_map_congr
  intro j hj
  rw [h (j + 1) (by omega) (by omega)]

theorem fferSeries_congr {d d' : Nat → F} {it : Nat} (h : ∀ j, j ≤ it → d j = d' j) :
    fferSeries p d it = fferSeries p d' it := by
  unfold fferSeries
  rw [sumf_congr p (fun j _ h2 => h j (by omega)), h it (le_refl _)]

/-- The partial pressure at `it` reads `sCO2` at indices up to `it` and the two feedback values. -/
theorem partialPressure_congr {a b : State F} {it : Nat} (hs : ∀ j, j ≤ it → a.sCO2 j = b.sCO2 j)
    (h1 : a.solFb = b.solFb) (h2 : a.mlFb = b.mlFb) :
    partialPressure p a it = partialPressure p b it := by
  unfold partialPressure zCo2
  rw [h1, h2, hs it (le_refl _)]
  rw [fsum_map_congr (g := fun j => b.sCO2 j * p.rs (it - 1 - j))]
  intro j hj
  rw [hs j (by omega)]

/-- The fields after a sub-step, in terms of the state before. -/
structure StepSpec (p : Pams F) (fnpp em : F) (st : State F) (it : Nat) (r : State F) : Prop where
  dfnpp : r.dfnpp = if 0 < it then
      upd st.dfnpp it (fnpp * p.beta_f * MathFn.log (st.xCO2 / p.preindustrial_co2_conc))
    else st.dfnpp
  em : r.emCO2_prev = (em - fferSeries p r.dfnpp it) / PPM_CO2_TO_PG_C
  ss1 : r.ss1 = if it = 0 then 0.5 * r.emCO2_prev / (OCEAN_AREA * GE_COEFF) else st.ss1
  sums : r.sums = if it = 0 then 0.0 else
    st.sums + st.emCO2_prev / (OCEAN_AREA * GE_COEFF) - st.sCO2 (it - 1)
  sCO2 : r.sCO2 = upd st.sCO2 it
    ((1.0 / ofInt p.idtm) * OCEAN_AREA * GE_COEFF
        / (1.0 + (1.0 / ofInt p.idtm) * OCEAN_AREA * GE_COEFF / 2.0) *
      (r.sums + r.ss1 + (if it = 0 then r.ss1 else
        0.5 * r.emCO2_prev / (OCEAN_AREA * GE_COEFF)
          - st.yCO2 / ((1.0 / ofInt p.idtm) * OCEAN_AREA * GE_COEFF))))
  yCO2 : r.yCO2 = partialPressure p r it
  xCO2 : r.xCO2 = r.sCO2 it + 0.5 * r.yCO2 + 0.5 * st.yCO2 + p.preindustrial_co2_conc
  solFb : r.solFb = st.solFb
  mlFb : r.mlFb = st.mlFb

theorem subStep_spec (fnpp em : F) (st : State F) (it : Nat) :
    StepSpec p fnpp em st it (subStep p fnpp em st it) := by
  by_cases h : it = 0
  · subst h
    constructor <;> simp [subStep, fferSeries, partialPressure, zCo2]
  · have h' : 0 < it := Nat.pos_of_ne_zero h
    constructor <;> simp [subStep, fferSeries, partialPressure, zCo2, h, h']

/-! ## replaying a year -/

/-- Agreement needed for a replay: everything except the array entries of the year not yet
recomputed (`it ≤ j < hi`); entry 0 of `dfnpp` is never written. -/
structure Agree (it hi : Nat) (a b : State F) : Prop where
  y : a.yCO2 = b.yCO2
  x : a.xCO2 = b.xCO2
  e : a.emCO2_prev = b.emCO2_prev
  s1 : a.ss1 = b.ss1
  su : a.sums = b.sums
  so : a.solFb = b.solFb
  ml : a.mlFb = b.mlFb
  s : ∀ j, (j < it ∨ hi ≤ j) → a.sCO2 j = b.sCO2 j
  d : ∀ j, (j < it ∨ hi ≤ j ∨ j = 0) → a.dfnpp j = b.dfnpp j

theorem agree_step {it hi : Nat} (hlt : it < hi) (fnpp em : F) {a b : State F}
    (h : Agree it hi a b) :
    Agree (it + 1) hi (subStep p fnpp em a it) (subStep p fnpp em b it) := by
  have ra := subStep_spec p fnpp em a it
  have rb := subStep_spec p fnpp em b it
  set r := subStep p fnpp em a it
  set t := subStep p fnpp em b it
  have hd : ∀ j, (j < it + 1 ∨ hi ≤ j ∨ j = 0) → r.dfnpp j = t.dfnpp j := by
    intro j hj
    rw [ra.dfnpp, rb.dfnpp]
    by_cases h0 : 0 < it
    · simp only [h0, if_true, upd, h.x]
      split
      · rfl
      · exact h.d j (by omega)
    · simp only [h0, if_false]
      exact h.d j (by omega)
  have he : r.emCO2_prev = t.emCO2_prev := by
    rw [ra.em, rb.em, fferSeries_congr p (fun j hj => hd j (by omega))]
  have hs1 : r.ss1 = t.ss1 := by rw [ra.ss1, rb.ss1, he, h.s1]
  have hsu : r.sums = t.sums := by
    rw [ra.sums, rb.sums]
    by_cases h0 : it = 0
    · simp [h0]
    · rw [if_neg h0, if_neg h0, h.su, h.e, h.s (it - 1) (by omega)]
  have hs : ∀ j, (j < it + 1 ∨ hi ≤ j) → r.sCO2 j = t.sCO2 j := by
    intro j hj
    rw [ra.sCO2, rb.sCO2]
    simp only [upd, hsu, hs1, he, h.y]
    split
    · rfl
    · exact h.s j (by omega)
  have hso : r.solFb = t.solFb := by rw [ra.solFb, rb.solFb, h.so]
  have hml : r.mlFb = t.mlFb := by rw [ra.mlFb, rb.mlFb, h.ml]
  have hy : r.yCO2 = t.yCO2 := by
    rw [ra.yCO2, rb.yCO2]
    exact partialPressure_congr p (fun j hj => hs j (by omega)) hso hml
  have hx : r.xCO2 = t.xCO2 := by
    rw [ra.xCO2, rb.xCO2, hy, h.y, hs it (by omega)]
  exact ⟨hy, hx, he, hs1, hsu, hso, hml, hs, hd⟩

theorem agree_fold {lo : Nat} (fnpp em : F) (n : Nat) {hi : Nat} (hhi : lo + n ≤ hi) {a b : State F}
    (h : Agree lo hi a b) :
    Agree (lo + n) hi
      ((List.range n).foldl (fun st i => subStep p fnpp em st (lo + i)) a)
      ((List.range n).foldl (fun st i => subStep p fnpp em st (lo + i)) b) := by
  induction n with
  | zero => simpa using h
  | succ n ih =>
    rw [List.range_succ, List.foldl_append, List.foldl_append]
    exact agree_step p (show lo + n < hi by omega) fnpp em (ih (by omega))

/-- What a stretch of sub-steps leaves alone. -/
theorem fold_frame {lo : Nat} (fnpp em : F) (n : Nat) (a : State F) :
    let r := (List.range n).foldl (fun st i => subStep p fnpp em st (lo + i)) a
    (∀ j, (j < lo ∨ lo + n ≤ j) → r.sCO2 j = a.sCO2 j) ∧
    (∀ j, (j < lo ∨ lo + n ≤ j ∨ j = 0) → r.dfnpp j = a.dfnpp j) := by
  induction n with
  | zero => simp
  | succ n ih =>
    simp only [List.range_succ, List.foldl_append, List.foldl_cons, List.foldl_nil]
    obtain ⟨h1, h2⟩ := ih
    set r := (List.range n).foldl (fun st i => subStep p fnpp em st (lo + i)) a
    have hr := subStep_spec p fnpp em r (lo + n)
    constructor
    · intro j hj
      rw [hr.sCO2, upd, if_neg (by omega)]
      exact h1 j (by omega)
    · intro j hj
      rw [hr.dfnpp]
      split
      · rw [upd, if_neg (by omega)]; exact h2 j (by omega)
      · exact h2 j (by omega)

omit [Add F] [Sub F] [Mul F] [Div F] [Neg F] [OfScientific F] [LT F] [DecidableLT F] [MathFn F] in
theorem agree_full {it hi : Nat} (h : hi ≤ it) {a b : State F} (ha : Agree it hi a b) : a = b := by
  obtain ⟨h1, h2, h3, h4, h5, h6, h7, h8, h9⟩ := ha
  have hs : a.sCO2 = b.sCO2 := funext fun j => h8 j (by omega)
  have hd : a.dfnpp = b.dfnpp := funext fun j => h9 j (by omega)
  cases a; cases b; simp_all

/-- Restoring the saved scalars and running the year again gives the same state as running it only
once with the second emission. -/
theorem replay (st : State F) (yrix : Nat) (g1 g2 : F) (fb1 fb2 : Option F) :
    co2em2conc p (setHold (co2em2conc p st yrix g1 fb1) (getHold st)) yrix g2 fb2
      = co2em2conc p st yrix g2 fb2 := by
  apply agree_full (it := yrix * p.idtm + p.idtm) (hi := yrix * p.idtm + p.idtm) (le_refl _)
  unfold co2em2conc
  apply agree_fold p _ _ _ (le_refl _)
  obtain ⟨h1, h2⟩ := fold_frame p (lo := yrix * p.idtm) (fnppFromTemp p (fb1.getD 0.0)) g1 p.idtm
    { st with solFb := solubilityTempFeedback p (fb1.getD 0.0),
              mlFb := mixedLayerTempFeedback p (fb1.getD 0.0) }
  exact ⟨rfl, rfl, rfl, rfl, rfl, rfl, rfl, fun j hj => h1 j hj, fun j hj => h2 j hj⟩

/-! ## the run as a sequence of sub-steps -/

/-- Setting the feedback values of a temperature (first lines of `co2em2conc`). -/
def withFb (st : State F) (fb : Option F) : State F :=
  { st with solFb := solubilityTempFeedback p (fb.getD 0.0), mlFb := mixedLayerTempFeedback p (fb.getD 0.0) }

/-- State after `n` sub-steps of a run with yearly emissions `E` and feedbacks `T`. -/
def subState (E : Nat → F) (T : Nat → Option F) (st0 : State F) : Nat → State F
  | 0 => st0
  | n + 1 => subStep p (fnppFromTemp p ((T (n / p.idtm)).getD 0.0)) (E (n / p.idtm))
      (withFb p (subState E T st0 n) (T (n / p.idtm))) n

theorem withFb_of_eq {st : State F} {fb : Option F}
    (h1 : st.solFb = solubilityTempFeedback p (fb.getD 0.0))
    (h2 : st.mlFb = mixedLayerTempFeedback p (fb.getD 0.0)) : withFb p st fb = st := by
  cases st; simp_all [withFb]

theorem co2em2conc_eq_subState (E : Nat → F) (T : Nat → Option F) (st0 : State F) (y : Nat) :
    co2em2conc p (subState p E T st0 (y * p.idtm)) y (E y) (T y) =
      if p.idtm = 0 then withFb p st0 (T y) else subState p E T st0 ((y + 1) * p.idtm) := by
  have key : ∀ n, n ≤ p.idtm → (List.range n).foldl
      (fun st i => subStep p (fnppFromTemp p ((T y).getD 0.0)) (E y) st (y * p.idtm + i))
      (withFb p (subState p E T st0 (y * p.idtm)) (T y)) =
      if n = 0 then withFb p (subState p E T st0 (y * p.idtm)) (T y)
      else subState p E T st0 (y * p.idtm + n) := by
    intro n
    induction n with
    | zero => simp
    | succ n ih =>
      intro hn
      rw [List.range_succ, List.foldl_append, ih (by omega)]
      simp only [List.foldl_cons, List.foldl_nil, Nat.succ_ne_zero, if_false]
      have hdiv : (y * p.idtm + n) / p.idtm = y := by
        rw [Nat.mul_comm, Nat.mul_add_div (by omega), Nat.div_eq_of_lt (by omega)]; rfl
      rw [← Nat.add_assoc, subState, hdiv]
      by_cases h0 : n = 0
      · subst h0; simp
      · rw [if_neg h0]
        congr 1
        symm
        have hsf : (subState p E T st0 (y * p.idtm + n)).solFb = solubilityTempFeedback p ((T y).getD 0.0)
            ∧ (subState p E T st0 (y * p.idtm + n)).mlFb = mixedLayerTempFeedback p ((T y).getD 0.0) := by
          obtain ⟨m, rfl⟩ := Nat.exists_eq_succ_of_ne_zero h0
          have hdiv' : (y * p.idtm + m) / p.idtm = y := by
            rw [Nat.mul_comm, Nat.mul_add_div (by omega), Nat.div_eq_of_lt (by omega)]; rfl
          rw [Nat.succ_eq_add_one, ← Nat.add_assoc, subState, hdiv']
          have hsp := subStep_spec p (fnppFromTemp p ((T y).getD 0.0)) (E y)
            (withFb p (subState p E T st0 (y * p.idtm + m)) (T y)) (y * p.idtm + m)
          exact ⟨hsp.solFb, hsp.mlFb⟩
        exact withFb_of_eq p hsf.1 hsf.2
  have := key p.idtm (le_refl _)
  unfold co2em2conc
  rw [show (y + 1) * p.idtm = y * p.idtm + p.idtm by ring]
  refine Eq.trans this ?_
  by_cases h0 : p.idtm = 0
  · simp [h0, subState]
  · simp [h0]

/-- State after `n` years. -/
def yearState (E : Nat → F) (T : Nat → Option F) (st0 : State F) : Nat → State F
  | 0 => st0
  | n + 1 => co2em2conc p (yearState E T st0 n) n (E n) (T n)

theorem yearState_eq (h : p.idtm ≠ 0) (E : Nat → F) (T : Nat → Option F) (st0 : State F) (n : Nat) :
    yearState p E T st0 n = subState p E T st0 (n * p.idtm) := by
  induction n with
  | zero => simp [yearState, subState]
  | succ n ih => rw [yearState, ih, co2em2conc_eq_subState, if_neg h]

theorem yearState_succ_shift (E : Nat → F) (T : Nat → Option F) (st0 : State F) (l : List (F × Option F))
    (y0 : Nat) (hE : ∀ i (h : i < l.length), E (y0 + i) = (l[i]).1)
    (hT : ∀ i (h : i < l.length), T (y0 + i) = (l[i]).2) :
    runFrom p (yearState p E T st0 y0) y0 l = yearState p E T st0 (y0 + l.length) := by
  induction l generalizing y0 with
  | nil => simp [runFrom]
  | cons i l ih =>
    have h0 := hE 0 (by simp)
    have h0' := hT 0 (by simp)
    simp only [Nat.add_zero, List.getElem_cons_zero] at h0 h0'
    rw [runFrom, ← h0, ← h0', show co2em2conc p (yearState p E T st0 y0) y0 (E y0) (T y0)
      = yearState p E T st0 (y0 + 1) from rfl, ih (y0 + 1)]
    · rw [List.length_cons]; congr 1; omega
    · intro j hj
      have := hE (j + 1) (by simpa using hj)
      simpa [Nat.add_assoc, Nat.add_comm 1] using this
    · intro j hj
      have := hT (j + 1) (by simpa using hj)
      simpa [Nat.add_assoc, Nat.add_comm 1] using this

end
end Verif.Model.Carbon
