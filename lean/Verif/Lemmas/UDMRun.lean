import Verif.Lemmas.UDMYear
import Verif.Spec.Diffusion

/-!
# The upwelling-diffusion model over the reals: histories of years
-/

namespace Verif.Lemmas.UDM
open Verif.Py Verif.Model.UDM Verif.Spec.Tridiag Verif.Lemmas Verif.Spec.Diffusion
open Finset (range)

variable {solve : Solver ℝ}

theorem energyBudget_ok {m : Model ℝ} {fn fs : ℝ} {vn vs : List ℝ} {o : Out ℝ} {m' : Model ℝ} :
    energyBudget solve m fn fs vn vs = .ok (o, m') →
    ∃ r : Model ℝ × Model.UDM.Acc ℝ, ∃ h7 ht : ℝ, subSteps solve m fn fs vn vs = .ok r ∧
      m' = { r.1 with prevFn := fn, prevFs := fs } ∧ oceanTemperature m' = .ok (h7, ht) ∧
      o.tn = r.1.tn ∧ o.ts = r.1.ts ∧ o.dtempnh = r.2.tempn ∧ o.dtempsh = r.2.temps ∧
      o.dtempnh_air = r.2.tempn_air ∧ o.dtempsh_air = r.2.temps_air ∧
      o.dtempnh_sea = r.2.tempn_sea ∧ o.dtempsh_sea = r.2.temps_sea ∧
      o.OHC700 = h7 ∧ o.OHCTOT = ht := by
  intro h
  unfold energyBudget at h
  simp only [bind_eq_ok, pure_ok, Except.ok.injEq, Prod.mk.injEq] at h
  obtain ⟨r, h1, ohc, h2, h3, h4⟩ := h
  refine ⟨r, ohc.1, ohc.2, h1, h4.symm, ?_, ?_⟩
  · rw [← h4]; exact h2
  · rw [← h3]; simp

theorem run_cons {m m' : Model ℝ} {y : Year ℝ} {ys : List (Year ℝ)} {os : List (Out ℝ)} :
    run solve m (y :: ys) = .ok (os, m') ↔ ∃ o m1 os', 
      energyBudget solve (setFeedback m y.w_aero) y.fn y.fs y.vn y.vs = .ok (o, m1) ∧
      run solve m1 ys = .ok (os', m') ∧ os = o :: os' := by
  simp only [run, bind_eq_ok, pure_ok, Except.ok.injEq, Prod.mk.injEq, Prod.exists]
  constructor
  · rintro ⟨o, m1, h1, os', m2, h2, h3, rfl⟩; exact ⟨o, m1, os', h1, h2, h3.symm⟩
  · rintro ⟨o, m1, os', h1, h2, rfl⟩; exact ⟨o, m1, h1, os', m', h2, rfl, rfl⟩

theorem run_nil {m m' : Model ℝ} {os : List (Out ℝ)} :
    run solve m [] = .ok (os, m') ↔ os = [] ∧ m' = m := by
  simp only [run, Except.ok.injEq, Prod.mk.injEq]
  exact ⟨fun h => ⟨h.1.symm, h.2.symm⟩, fun h => ⟨h.1.symm, h.2.symm⟩⟩

/-- The last year of a history. -/
theorem run_snoc {m m' : Model ℝ} {y : Year ℝ} {ys : List (Year ℝ)} {os : List (Out ℝ)} :
    run solve m (ys ++ [y]) = .ok (os, m') ↔ ∃ os' m1 o, run solve m ys = .ok (os', m1) ∧
      energyBudget solve (setFeedback m1 y.w_aero) y.fn y.fs y.vn y.vs = .ok (o, m') ∧
      os = os' ++ [o] := by
  induction ys generalizing m os with
  | nil =>
    rw [List.nil_append, run_cons]
    constructor
    · rintro ⟨o, m1, os', h1, h2, rfl⟩
      obtain ⟨rfl, rfl⟩ := run_nil.1 h2
      exact ⟨[], m, o, run_nil.2 ⟨rfl, rfl⟩, h1, rfl⟩
    · rintro ⟨os', m1, o, h1, h2, rfl⟩
      obtain ⟨rfl, rfl⟩ := run_nil.1 h1
      exact ⟨o, m', [], h2, run_nil.2 ⟨rfl, rfl⟩, rfl⟩
  | cons z zs ih =>
    rw [List.cons_append, run_cons]
    constructor
    · rintro ⟨o, m1, os', h1, h2, rfl⟩
      obtain ⟨os'', m2, o', h3, h4, rfl⟩ := ih.1 h2
      exact ⟨o :: os'', m2, o', run_cons.2 ⟨o, m1, os'', h1, h3, rfl⟩, h4, rfl⟩
    · rintro ⟨os', m1, o, h1, h2, rfl⟩
      obtain ⟨o', m2, os'', h3, h4, rfl⟩ := run_cons.1 h1
      exact ⟨o', m2, os'' ++ [o], h3, ih.2 ⟨os'', m1, o, h4, h2, rfl⟩, rfl⟩

theorem setFeedback_fields (m : Model ℝ) (w : ℝ) :
    (setFeedback m w).p = m.p ∧ (setFeedback m w).tn = m.tn ∧ (setFeedback m w).ts = m.ts ∧
    (setFeedback m w).prevFn = m.prevFn ∧ (setFeedback m w).prevFs = m.prevFs := by
  unfold setFeedback
  split <;> exact ⟨rfl, rfl, rfl, rfl, rfl⟩

/-- What a history leaves behind. -/
structure After (p : Pams ℝ) (ys : List (Year ℝ)) (os : List (Out ℝ)) (m : Model ℝ) : Prop where
  ready : Ready m
  pams : m.p = p
  rlamda : p.delta_lambda_aero = 0 → m.rlamda = 1 / p.lambda
  tn : m.tn = (os.getLast?.map Out.tn).getD (fun _ => 0)
  ts : m.ts = (os.getLast?.map Out.ts).getD (fun _ => 0)
  prevFn : m.prevFn = before ys Year.fn
  prevFs : m.prevFs = before ys Year.fs

theorem After.feedback {p : Pams ℝ} {ys : List (Year ℝ)} {os : List (Out ℝ)} {m : Model ℝ}
    (h : After p ys os m) (w : ℝ) : (setFeedback m w).rlamda = Spec.Diffusion.feedback p w := by
  unfold setFeedback Spec.Diffusion.feedback
  split
  · rename_i h0
    rw [misEq, h.pams, sci0] at h0
    rw [h.rlamda h0, h0]; simp
  · simp only [setupEbud, setupEbud2]
    rw [h.pams, sci1]

theorem After.phys {p : Pams ℝ} {ys : List (Year ℝ)} {os : List (Out ℝ)} {m : Model ℝ}
    (h : After p ys os m) (hp : Physical p) {w : ℝ} (hw : 0 < Spec.Diffusion.feedback p w) :
    Phys (setFeedback m w).p (setFeedback m w).rlamda := by
  rw [h.feedback, (setFeedback_fields m w).1, h.pams]
  exact ⟨hw, hp.exchange, hp.north, hp.south, hp.between, hp.mixed, hp.layers, hp.steps⟩

theorem run_after (hs : Exact solve) {p : Pams ℝ} {ys : List (Year ℝ)} {os : List (Out ℝ)}
    {m : Model ℝ} (h : run solve (init p) ys = .ok (os, m)) : After p ys os m := by
  induction ys using List.reverseRecOn generalizing os m with
  | nil =>
    obtain ⟨rfl, rfl⟩ := run_nil.1 h
    refine ⟨init_ready p, rfl, fun _ => ?_, ?_, ?_, ?_, ?_⟩
    · show 1.0 / p.lambda = _; rw [sci1]
    all_goals simp only [before, List.getLast?_nil, Option.map_none, Option.getD_none]
    · show (fun _ => (0.0 : ℝ)) = _; rw [sci0]
    · show (fun _ => (0.0 : ℝ)) = _; rw [sci0]
    · exact sci0
    · exact sci0
  | append_singleton ys y ih =>
    obtain ⟨os', m1, o, h1, h2, rfl⟩ := run_snoc.1 h
    have a := ih h1
    obtain ⟨r, h7, ht, e1, e2, _, e3, e4, _⟩ := energyBudget_ok h2
    obtain ⟨f1, f2, f3, f4, f5⟩ := setFeedback_fields m1 y.w_aero
    have sy := subSteps_same hs (setFeedback_ready a.ready y.w_aero) e1
    refine ⟨?_, ?_, ?_, ?_, ?_, ?_, ?_⟩
    · rw [e2]; exact sy.ready.withTemps r.1.tn r.1.ts y.fn y.fs
    · rw [e2]; show r.1.p = p; rw [sy.p, f1, a.pams]
    · intro h0
      rw [e2]; show r.1.rlamda = _
      rw [sy.rlamda, a.feedback, Spec.Diffusion.feedback, h0]; simp
    · simp [e2, e3]
    · simp [e2, e4]
    · simp [e2, before]
    · simp [e2, before]

theorem sum_map_range (f : ℕ → ℝ) (n : ℕ) : ((List.range n).map f).sum = ∑ i ∈ range n, f i := rfl

theorem oceanTemperature_tot {m : Model ℝ} {a b : ℝ} (h : oceanTemperature m = .ok (a, b)) :
    b = ohcUnit * heat m.p m.tn m.ts := by
  unfold oceanTemperature at h
  simp only [bind_eq_ok, pure_ok, Except.ok.injEq, Prod.mk.injEq] at h
  obtain ⟨_, _, _, h⟩ := h
  rw [← h, fsum_eq_sum, havtemps, heat, Finset.mul_sum, sum_map_range]
  refine Finset.sum_congr rfl fun i _ => ?_
  unfold havtemp ohcUnit
  norm_num
  ring

end Verif.Lemmas.UDM
