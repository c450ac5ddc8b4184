import Verif.Lemmas.Carbon

/-!
# C20, C21: back-calculated emissions; C28: airborne fraction
-/

namespace Verif.Props
open Verif.Py Verif.Model Verif.Model.BackCalc

/-! ## What a search leaves behind (every number type) -/
section
variable {S H F : Type} [Add F] [Sub F] [Mul F] [Div F] [Neg F] [OfScientific F] [LT F] [DecidableLT F]
  [MathFn F]

/-- Restoring the saved values after running a year and running the year again is the same as
running it once. -/
def Replayable (m : CCModel S H F) : Prop :=
  ∀ st y g1 g2 fb, m.co2em2conc (m.setHold (m.co2em2conc st y g1 fb) (m.getHold st)) y g2 fb
    = m.co2em2conc st y g2 fb

theorem bisect_state (m : CCModel S H F) (hm : Replayable m) (st : S) (y : Nat) (fb : Option F)
    (target rtol : F) (n : Nat) (maxG minG : F) (r : Found S F)
    (hr : r.state = m.co2em2conc st y r.guess fb) :
    let r' := bisectLoop m y fb (m.getHold st) target rtol n maxG minG r
    r'.state = m.co2em2conc st y r'.guess fb ∧
    ∃ t : List F, r'.evals = r.evals ++ t ∧ t.length ≤ n ∧
      (notConverged target (m.conc r'.state) rtol = false ∨ t.length = n) := by
  induction n generalizing maxG minG r with
  | zero => exact ⟨hr, [], by simp [bisectLoop]⟩
  | succ n ih =>
    unfold bisectLoop
    split
    · split
      · obtain ⟨h1, t, h2, h3, h4⟩ := ih r.guess minG
          ⟨(r.guess + minG) / 2.0, m.co2em2conc (m.setHold r.state (m.getHold st)) y
            ((r.guess + minG) / 2.0) fb, r.evals ++ [(r.guess + minG) / 2.0]⟩ (by
              dsimp only; rw [hr]; exact hm st y r.guess _ fb)
        exact ⟨h1, _ :: t, by rw [h2, List.append_assoc]; rfl, by simp [h3], by simpa using h4⟩
      · obtain ⟨h1, t, h2, h3, h4⟩ := ih maxG r.guess
          ⟨(r.guess + maxG) / 2.0, m.co2em2conc (m.setHold r.state (m.getHold st)) y
            ((r.guess + maxG) / 2.0) fb, r.evals ++ [(r.guess + maxG) / 2.0]⟩ (by
              dsimp only; rw [hr]; exact hm st y r.guess _ fb)
        exact ⟨h1, _ :: t, by rw [h2, List.append_assoc]; rfl, by simp [h3], by simpa using h4⟩
    · next h => exact ⟨hr, [], by simp, by simp, Or.inl (by simpa using h)⟩

/-- One search: the state left behind is the forward state of the returned emission, and either the
tolerance is met or all `maxit + 1` evaluations were used. -/
theorem guess_state (m : CCModel S H F) (hm : Replayable m) (st : S) (target : F) (mm : F × F) (y : Nat)
    (fb : Option F) (rtol : F) (maxit : Nat) :
    let r := guessEmissions m st target mm y fb rtol maxit
    r.state = m.co2em2conc st y r.guess fb ∧ r.evals.length ≤ maxit + 1 ∧
    (notConverged target (m.conc r.state) rtol = false ∨ r.evals.length = maxit + 1) := by
  obtain ⟨h1, t, h2, h3, h4⟩ := bisect_state m hm st y fb target rtol maxit mm.1 mm.2
    ⟨(mm.2 + mm.1) / 2.0, m.co2em2conc st y ((mm.2 + mm.1) / 2.0) fb, [(mm.2 + mm.1) / 2.0]⟩ rfl
  refine ⟨h1, ?_, ?_⟩
  · unfold guessEmissions; dsimp only; rw [h2]; simp; omega
  · unfold guessEmissions; dsimp only; rw [h2]
    rcases h4 with h4 | h4
    · exact Or.inl h4
    · right; simp [h4]

theorem defaultModel_replayable (p : Carbon.Pams F) : Replayable (defaultModel p) :=
  fun st y g1 g2 fb => Carbon.replay p st y g1 g2 fb fb

/-! ## C20 -/

/-- Forward run of a list of yearly emissions, starting at year index `y`. -/
def forward (p : Carbon.Pams F) (fb : Nat → Option F) (st : Carbon.State F) (y : Nat) :
    List F → Carbon.State F
  | [] => st
  | e :: es => forward p fb (Carbon.co2em2conc p st y e (fb y)) (y + 1) es

/-- What the user is promised about year `i`: the emissions returned for the first `i+1` years, run
forward, give a concentration within the tolerance; or the search for that year was cut off after
`maxit + 1` forward evaluations. -/
theorem C20_loop (p : Carbon.Pams F) (width : Nat → F) (fb : Nat → Option F) (rtol : F) (maxit : Nat)
    (y : Nat) (prev : F) (concs : List F) (st : Carbon.State F) :
    let r := backLoop (defaultModel p) width fb rtol maxit y prev concs st
    r.1.length = concs.length ∧ r.2 = forward p fb st y r.1 ∧
    ∀ i (h : i < concs.length),
      (rtol < MathFn.abs (concs[i] - (forward p fb st y (r.1.take (i + 1))).xCO2) / concs[i]) →
      (guessEmissions (defaultModel p) (forward p fb st y (r.1.take i)) concs[i]
        (initialMaxMin concs[i] (if i = 0 then prev else concs.getD (i - 1) prev) (width (y + i)))
        (y + i) (fb (y + i)) rtol maxit).evals.length = maxit + 1 := by
  induction concs generalizing y prev st with
  | nil => exact ⟨rfl, rfl, fun i h => by simp at h⟩
  | cons c cs ih =>
    intro r
    obtain ⟨g1, g2, g3⟩ := guess_state (defaultModel p) (defaultModel_replayable p) st c
      (initialMaxMin c prev (width y)) y (fb y) rtol maxit
    set g := guessEmissions (defaultModel p) st c (initialMaxMin c prev (width y)) y (fb y) rtol maxit
    obtain ⟨l1, l2, l3⟩ := ih (y + 1) c g.state
    set rest := backLoop (defaultModel p) width fb rtol maxit (y + 1) c cs g.state
    have hr : r = (g.guess :: rest.1, rest.2) := rfl
    have g1' : g.state = Carbon.co2em2conc p st y g.guess (fb y) := g1
    rw [hr]
    refine ⟨by simp [l1], ?_, ?_⟩
    · simp only [forward]; rw [← g1']; exact l2
    · intro i hi
      cases i with
      | zero =>
        simp only [List.getElem_cons_zero, Nat.zero_add, List.take_succ_cons, List.take_zero, forward,
          if_true, Nat.add_zero]
        rw [← g1']
        intro hlt
        rcases g3 with g3 | g3
        · exact absurd g3 (by
            simp only [notConverged, decide_eq_false_iff_not, not_not]; exact hlt)
        · exact g3
      | succ i =>
        simp only [List.getElem_cons_succ, List.take_succ_cons, forward, Nat.succ_ne_zero, if_false]
        rw [← g1']
        intro hlt
        have := l3 i (by simpa using hi) hlt
        rw [show y + (i + 1) = y + 1 + i by omega]
        rw [show (c :: cs).getD (i + 1 - 1) prev = if i = 0 then c else cs.getD (i - 1) c by
          cases i with
          | zero => simp
          | succ i =>
            have h1 : i < cs.length := by simp at hi; omega
            simp [List.getD_eq_getElem?_getD, List.getElem?_eq_getElem h1]]
        exact this

/-- C20: the carbon state after the back-calculation of a concentration series is exactly the state
after a forward run with the returned emissions, and for every year the forward concentration is
within the (relative) tolerance 1e-7 of the target unless the search for that year used up all its
101 evaluations. Holds for every number type, so also for doubles. -/
theorem C20_backcalculated_emissions (p : Carbon.Pams F) (st : Carbon.State F) (concs : List F)
    (dtemp : Nat → F) :
    let r := backCalculate p st concs dtemp
    let fb := fun i => some (dtemp i)
    r.1.length = concs.length ∧ r.2 = forward p fb st 0 r.1 ∧
    ∀ i (h : i < concs.length),
      1e-7 < MathFn.abs (concs[i] - (forward p fb st 0 (r.1.take (i + 1))).xCO2) / concs[i] →
      (guessEmissions (defaultModel p) (forward p fb st 0 (r.1.take i)) concs[i]
        (initialMaxMin concs[i] (if i = 0 then p.preindustrial_co2_conc else concs[i - 1])
          (Carbon.fferSeries p (Carbon.dfnppOfConc p (fun y => concs.getD y 0.0) dtemp) (i * p.idtm)))
        i (fb i) 1e-7 100).evals.length = 101 := by
  intro r fb
  obtain ⟨h1, h2, h3⟩ := C20_loop p (fun i => Carbon.fferSeries p
    (Carbon.dfnppOfConc p (fun y => concs.getD y 0.0) dtemp) (i * p.idtm)) fb 1e-7 100 0
    p.preindustrial_co2_conc concs st
  refine ⟨h1, h2, fun i hi hlt => ?_⟩
  have := h3 i hi hlt
  simp only [Nat.zero_add] at this
  rw [show concs.getD (i - 1) p.preindustrial_co2_conc = concs[i - 1] by
    simp [List.getD_eq_getElem?_getD, List.getElem?_eq_getElem (show i - 1 < concs.length by omega)]] at this
  exact this

end

/-- `forward` is the ordinary forward run of the carbon cycle. -/
theorem forward_eq_runFrom {F : Type} [Add F] [Sub F] [Mul F] [Div F] [Neg F] [OfScientific F] [LT F]
    [DecidableLT F] [MathFn F] (p : Carbon.Pams F) (fb : Nat → Option F) (st : Carbon.State F) (y : Nat)
    (es : List F) :
    forward p fb st y es = Carbon.runFrom p st y (es.mapIdx (fun i e => (e, fb (y + i)))) := by
  induction es generalizing st y with
  | nil => rfl
  | cons e es ih =>
    rw [forward, ih, List.mapIdx_cons, Carbon.runFrom]
    have : (fun i e => (e, fb (y + (i + 1)))) = (fun (i : Nat) (e : F) => (e, fb (y + 1 + i))) := by
      funext i e; rw [show y + (i + 1) = y + 1 + i by omega]
    simp only [this, Nat.add_zero]

/-- Two years of forward running differ from one: the statement is about real dynamics. -/
example (p : Carbon.Pams ℝ) (fb : Nat → Option ℝ) (st : Carbon.State ℝ) (e1 e2 : ℝ) :
    forward p fb st 0 [e1, e2] =
      Carbon.co2em2conc p (Carbon.co2em2conc p st 0 e1 (fb 0)) 1 e2 (fb 1) := rfl

/-! ## C21 (exact arithmetic) -/
section
variable {S H : Type}

theorem bisect_trace (m : CCModel S H ℝ) (y : Nat) (fb : Option ℝ) (hold : H) (target rtol : ℝ)
    (n : Nat) (maxG minG : ℝ) (hle : minG ≤ maxG) (r : Found S ℝ) (hmid : r.guess = (minG + maxG) / 2) :
    let r' := bisectLoop m y fb hold target rtol n maxG minG r
    ∃ t : List ℝ, r'.evals = r.evals ++ t ∧ t.length ≤ n ∧
      r'.guess = (r.guess :: t).getLast (by simp) ∧
      (∀ g ∈ t, minG ≤ g ∧ g ≤ maxG) ∧
      ∀ i (h : i < t.length), |t[i] - (r.guess :: t)[i]'(by simp; omega)| = (maxG - minG) / 2 ^ (i + 2) := by
  have e2 : (2.0 : ℝ) = 2 := by norm_num
  induction n generalizing maxG minG r with
  | zero => exact ⟨[], by simp [bisectLoop]⟩
  | succ n ih =>
    unfold bisectLoop
    split
    · split
      · set g := (r.guess + minG) / 2.0 with hg
        obtain ⟨t, h1, h2, h3, h4, h5⟩ := ih r.guess minG (by linarith)
          ⟨g, m.co2em2conc (m.setHold r.state hold) y g fb, r.evals ++ [g]⟩
          (by dsimp only; rw [hg, e2]; ring)
        refine ⟨g :: t, by rw [h1]; simp, by simp [h2], ?_, ?_, ?_⟩
        · rw [h3]; simp
        · intro x hx
          rcases List.mem_cons.1 hx with rfl | hx
          · rw [hg, e2]; constructor <;> linarith
          · have := h4 x hx; exact ⟨this.1, by linarith⟩
        · intro i hi
          cases i with
          | zero =>
            simp only [List.getElem_cons_zero]
            rw [hg, e2, hmid, abs_of_nonpos (by linarith)]; ring
          | succ i =>
            simp only [List.getElem_cons_succ]
            rw [h5 i (by simpa using hi), hmid]
            ring
      · set g := (r.guess + maxG) / 2.0 with hg
        obtain ⟨t, h1, h2, h3, h4, h5⟩ := ih maxG r.guess (by linarith)
          ⟨g, m.co2em2conc (m.setHold r.state hold) y g fb, r.evals ++ [g]⟩
          (by dsimp only; rw [hg, e2])
        refine ⟨g :: t, by rw [h1]; simp, by simp [h2], ?_, ?_, ?_⟩
        · rw [h3]; simp
        · intro x hx
          rcases List.mem_cons.1 hx with rfl | hx
          · rw [hg, e2]; constructor <;> linarith
          · have := h4 x hx; exact ⟨by linarith, this.2⟩
        · intro i hi
          cases i with
          | zero =>
            simp only [List.getElem_cons_zero]
            rw [hg, e2, hmid, abs_of_nonneg (by linarith)]; ring
          | succ i =>
            simp only [List.getElem_cons_succ]
            rw [h5 i (by simpa using hi), hmid]
            ring
    · exact ⟨[], by simp⟩

/-- C21, first half: the search terminates after at most `maxit + 1` forward evaluations, returns the
last evaluated guess, never leaves the bracket, starts at the midpoint, and each further guess moves
by exactly half of the previous move (`width / 2^(k+2)`). Any model, any target, any tolerance. -/
theorem C21_search_trace (m : CCModel S H ℝ) (st : S) (target : ℝ) (maxG minG : ℝ) (hle : minG ≤ maxG)
    (y : Nat) (fb : Option ℝ) (rtol : ℝ) (maxit : Nat) :
    let r := guessEmissions m st target (maxG, minG) y fb rtol maxit
    r.evals ≠ [] ∧ r.evals.length ≤ maxit + 1 ∧ r.evals.head? = some ((minG + maxG) / 2) ∧
    r.evals.getLast? = some r.guess ∧ (∀ g ∈ r.evals, minG ≤ g ∧ g ≤ maxG) ∧
    ∀ k (h : k + 1 < r.evals.length), |r.evals[k + 1] - r.evals[k]| = (maxG - minG) / 2 ^ (k + 2) := by
  have e2 : (2.0 : ℝ) = 2 := by norm_num
  obtain ⟨t, h1, h2, h3, h4, h5⟩ := bisect_trace m y fb (m.getHold st) target rtol maxit maxG minG hle
    ⟨(minG + maxG) / 2.0, m.co2em2conc st y ((minG + maxG) / 2.0) fb, [(minG + maxG) / 2.0]⟩
    (by dsimp only; rw [e2])
  intro r
  have hr : r.evals = (minG + maxG) / 2.0 :: t := by
    change (bisectLoop _ _ _ _ _ _ _ _ _ _).evals = _; rw [h1]; simp
  have hg : r.guess = ((minG + maxG) / 2.0 :: t).getLast (by simp) := h3
  refine ⟨by rw [hr]; simp, by rw [hr]; simp; omega, by rw [hr, e2]; simp, ?_, ?_, ?_⟩
  · rw [hg, hr, List.getLast?_eq_some_getLast (by simp)]
  · rw [hr]
    intro g hgm
    rcases List.mem_cons.1 hgm with rfl | hgm
    · rw [e2]; constructor <;> linarith
    · exact h4 g hgm
  · rw [show (∀ k (h : k + 1 < r.evals.length), |r.evals[k + 1] - r.evals[k]| = (maxG - minG) / 2 ^ (k + 2))
      ↔ (∀ k (h : k + 1 < ((minG + maxG) / 2.0 :: t).length), |((minG + maxG) / 2.0 :: t)[k + 1] -
        ((minG + maxG) / 2.0 :: t)[k]| = (maxG - minG) / 2 ^ (k + 2)) by simp only [hr]]
    intro k hk
    have := h5 k (by simpa using hk)
    simpa using this

theorem bisect_converges (m : CCModel S H ℝ) (hm : Replayable m) (st : S) (y : Nat) (fb : Option ℝ)
    (target rtol : ℝ) (ht : 0 < target) (hrt : 0 ≤ rtol) (e : ℝ)
    (mono : Monotone (fun x => m.conc (m.co2em2conc st y x fb)))
    (he : m.conc (m.co2em2conc st y e fb) = target)
    (n : Nat) (maxG minG : ℝ) (h1 : minG ≤ e) (h2 : e ≤ maxG) (r : Found S ℝ)
    (hmid : r.guess = (minG + maxG) / 2) (hst : r.state = m.co2em2conc st y r.guess fb) :
    let r' := bisectLoop m y fb (m.getHold st) target rtol n maxG minG r
    |target - m.conc r'.state| ≤ rtol * target ∨ |r'.guess - e| ≤ (maxG - minG) / 2 ^ (n + 1) := by
  have e2 : (2.0 : ℝ) = 2 := by norm_num
  induction n generalizing maxG minG r with
  | zero =>
    right
    simp only [bisectLoop]
    rw [hmid, abs_le]; constructor <;> linarith
  | succ n ih =>
    unfold bisectLoop
    split
    · next hnc =>
      have hne : m.conc r.state ≠ target := by
        intro heq
        simp only [notConverged, heq, sub_self, mabs, abs_zero, zero_div, decide_eq_true_eq] at hnc
        linarith
      have hf : m.conc r.state = m.conc (m.co2em2conc st y r.guess fb) := by rw [hst]
      split
      · next hgt =>
        have hlt : e ≤ r.guess := by
          by_contra hcon
          have := mono (le_of_lt (not_le.1 hcon))
          simp only at this
          rw [← hf, he] at this; linarith
        have := ih r.guess minG h1 hlt
          ⟨(r.guess + minG) / 2.0, m.co2em2conc (m.setHold r.state (m.getHold st)) y
            ((r.guess + minG) / 2.0) fb, r.evals ++ [(r.guess + minG) / 2.0]⟩
          (by dsimp only; rw [e2]; ring) (by dsimp only; rw [hst]; exact hm st y r.guess _ fb)
        rcases this with this | this
        · exact Or.inl this
        · right
          refine le_trans this (le_of_eq ?_)
          rw [hmid]; ring
      · next hgt =>
        have hlt' : m.conc r.state < target := lt_of_le_of_ne (not_lt.1 hgt) hne
        have hlt : r.guess ≤ e := by
          by_contra hcon
          have := mono (le_of_lt (not_le.1 hcon))
          simp only at this
          rw [← hf, he] at this; linarith
        have := ih maxG r.guess hlt h2
          ⟨(r.guess + maxG) / 2.0, m.co2em2conc (m.setHold r.state (m.getHold st)) y
            ((r.guess + maxG) / 2.0) fb, r.evals ++ [(r.guess + maxG) / 2.0]⟩
          (by dsimp only; rw [e2]) (by dsimp only; rw [hst]; exact hm st y r.guess _ fb)
        rcases this with this | this
        · exact Or.inl this
        · right
          refine le_trans this (le_of_eq ?_)
          rw [hmid]; ring
    · next hnc =>
      left
      simp only [notConverged, decide_eq_true_eq, not_lt, mabs] at hnc
      rwa [div_le_iff₀ ht] at hnc

/-- C21, second half: if the concentration at the end of the year is a non-decreasing function of the
year's emission and the bracket contains an emission hitting the target exactly, then on return
either the tolerance is met or the emission is within `width / 2^(maxit+1)` of the solution. -/
theorem C21_converges (m : CCModel S H ℝ) (hm : Replayable m) (st : S) (y : Nat) (fb : Option ℝ)
    (target rtol : ℝ) (ht : 0 < target) (hrt : 0 ≤ rtol) (maxit : Nat) (maxG minG e : ℝ)
    (mono : Monotone (fun x => m.conc (m.co2em2conc st y x fb)))
    (he : m.conc (m.co2em2conc st y e fb) = target) (h1 : minG ≤ e) (h2 : e ≤ maxG) :
    let r := guessEmissions m st target (maxG, minG) y fb rtol maxit
    |target - m.conc r.state| ≤ rtol * target ∨ |r.guess - e| ≤ (maxG - minG) / 2 ^ (maxit + 1) := by
  have e2 : (2.0 : ℝ) = 2 := by norm_num
  exact bisect_converges m hm st y fb target rtol ht hrt e mono he maxit maxG minG h1 h2
    ⟨(minG + maxG) / 2.0, m.co2em2conc st y ((minG + maxG) / 2.0) fb, [(minG + maxG) / 2.0]⟩
    (by dsimp only; rw [e2]) rfl

end

/-- Non-vacuity of the second half: an accumulating model (concentration rises by half the emission
each year), target reached by emission 4 in the bracket (0, 10). -/
example : let m : CCModel ℝ ℝ ℝ := ⟨fun s _ e _ => s + e / 2, id, id, fun _ h => h⟩
    Replayable m ∧ Monotone (fun x => m.conc (m.co2em2conc 278 0 x none)) ∧
    m.conc (m.co2em2conc 278 0 4 none) = 280 ∧ (0 : ℝ) ≤ 4 ∧ (4 : ℝ) ≤ 10 := by
  refine ⟨fun _ _ _ _ _ => rfl, ?_, by norm_num, by norm_num, by norm_num⟩
  intro a b h
  simp only [id]
  linarith

/-- The initial bracket is ordered, at least one wide, and contains the emission that would explain
the concentration change with no uptake at all when the width estimate has either sign. -/
theorem C21_initial_bracket (concNow concZero emWidth : ℝ) :
    let mm := initialMaxMin concNow concZero emWidth
    1 ≤ mm.1 - mm.2 ∧ 12 * |emWidth| ≤ mm.1 - mm.2 ∧
    mm.2 ≤ (concNow - concZero) * 2.123 ∧ (concNow - concZero) * 2.123 ≤ mm.1 := by
  have key : ∀ c : ℝ, ∀ minG maxG : ℝ,
      minG = (if c - 4.0 * emWidth < c + 8.0 * emWidth then c - 4.0 * emWidth else c + 8.0 * emWidth) →
      maxG = (if c + 8.0 * emWidth < c - 4.0 * emWidth then c - 4.0 * emWidth else c + 8.0 * emWidth) →
      let mm := if maxG - minG < 1.0 then (maxG + 1.0, minG - 1.0) else (maxG, minG)
      1 ≤ mm.1 - mm.2 ∧ 12 * |emWidth| ≤ mm.1 - mm.2 ∧ mm.2 ≤ c ∧ c ≤ mm.1 := by
    intro c minG maxG hmin hmax
    norm_num at hmin hmax ⊢
    have h0 : 12 * |emWidth| ≤ maxG - minG ∧ minG ≤ c ∧ c ≤ maxG := by
      rcases le_total 0 emWidth with h | h
      · rw [abs_of_nonneg h]
        split_ifs at hmin hmax <;> subst hmin <;> subst hmax <;>
          (refine ⟨?_, ?_, ?_⟩ <;> linarith)
      · rw [abs_of_nonpos h]
        split_ifs at hmin hmax <;> subst hmin <;> subst hmax <;>
          (refine ⟨?_, ?_, ?_⟩ <;> linarith)
    obtain ⟨h1, h2, h3⟩ := h0
    split_ifs with hw <;> dsimp only <;> refine ⟨?_, ?_, ?_, ?_⟩ <;> linarith
  exact key _ _ _ rfl rfl

/-! ## C28 -/

/-- Cumulative sum of the first `i + 1` entries. -/
def cumTo (em : List ℝ) (i : ℕ) : ℝ := (em.take (i + 1)).sum

/-- C28: when no cumulative sum vanishes, every reported value times the cumulative emissions of
that year is the carbon excess of that year; otherwise the whole series is NaN. -/
theorem C28_airborne_fraction (em conc : List ℝ) (pre : ℝ) (hlen : em.length = conc.length) :
    (∃ af, Carbon.airborneFraction em conc pre = some af ∧ af.length = em.length ∧
      (∀ i, i < em.length → cumTo em i ≠ 0) ∧
      ∀ i (h : i < af.length) (h' : i < conc.length),
        af[i] * cumTo em i = (conc[i] - pre) * 2.123) ∨
    (Carbon.airborneFraction em conc pre = none ∧ ∃ i, i < em.length ∧ cumTo em i = 0) := by
  have e0 : (0.0 : ℝ) = 0 := by norm_num
  have hcum : (List.range em.length).map (fun i => fsum (em.take (i + 1)))
      = (List.range em.length).map (cumTo em) := by
    apply List.map_congr_left; intro i _; rw [fsum_eq_sum]; rfl
  unfold Carbon.airborneFraction
  simp only
  rw [hcum]
  by_cases h : ∃ i, i < em.length ∧ cumTo em i = 0
  · right
    refine ⟨?_, h⟩
    rw [if_pos]
    obtain ⟨i, hi, hz⟩ := h
    rw [List.any_eq_true]
    exact ⟨cumTo em i, List.mem_map.2 ⟨i, List.mem_range.2 hi, rfl⟩, by rw [misEq, e0]; exact hz⟩
  · left
    push Not at h
    rw [if_neg]
    · refine ⟨_, rfl, by simp [hlen], h, ?_⟩
      intro i hi hi'
      simp only [List.getElem_zipWith, List.getElem_map, List.getElem_range, Carbon.PPM_CO2_TO_PG_C]
      have := h i (by omega)
      field_simp
    · rw [List.any_eq_true]
      rintro ⟨c, hc, hz⟩
      obtain ⟨i, hi, rfl⟩ := List.mem_map.1 hc
      rw [misEq, e0] at hz
      exact h i (List.mem_range.1 hi) hz

/-- Both cases occur. -/
example : cumTo [1, 2] 1 = 3 ∧ cumTo [1, -1] 1 = 0 := by
  constructor <;> norm_num [cumTo]

end Verif.Props
