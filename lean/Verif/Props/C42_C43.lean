import Verif.Model.Parallel
import Verif.Lemmas.Except
import Mathlib.Data.List.Range
import Mathlib.Data.List.Perm.Basic

/-!
# C42, C43: parallel execution
-/

namespace Verif.Props
open Verif.Py Verif.Model.Parallel

/-! ## C43: results do not depend on the schedule -/

section C43
variable {C R : Type}

theorem sliceIdx_nonneg {n : ℕ} {i : ℤ} (h : 0 ≤ i) : sliceIdx n i = min i.toNat n := by
  unfold sliceIdx
  rw [if_neg (by omega)]

theorem runParallel_eq (sched : Schedule) (func : C → Except PyErr R) (configs : List C) :
    runParallel sched func configs =
      match sched.order.findSome? (fun i => failedWith (configs.map func)[i]?) with
      | some e => .error e
      | none => if sched.timedOut then .error .other else .ok ((configs.map func).map outcome) := by
  have key : ∀ (futures : List (Except PyErr R)) (order : List ℕ), waitAll futures order =
      match order.findSome? (fun i => failedWith futures[i]?) with
      | some e => .error e
      | none => .ok () := by
    intro futures order
    induction order with
    | nil => rfl
    | cons i order ih =>
      rw [List.findSome?_cons, waitAll]
      cases failedWith futures[i]? with
      | some e => rfl
      | none => exact ih
  unfold runParallel
  simp only
  rw [key]
  cases sched.order.findSome? (fun i => failedWith (configs.map func)[i]?) with
  | some e => rfl
  | none => rw [bind_ok]; rfl

/-- C43: a phase of parallel jobs that all succeed gives their results in submission order, for every
completion order. -/
theorem C43_parallel_phase {func : C → Except PyErr R} {cs : List C} {rs : List R}
    (hok : cs.map func = rs.map Except.ok) {sched : Schedule} (_hv : sched.Valid cs.length)
    (ht : sched.timedOut = false) : runParallel sched func cs = .ok (rs.map Sum.inr) := by
  rw [runParallel_eq, hok]
  have hn : sched.order.findSome? (fun i => failedWith (rs.map (Except.ok (ε := PyErr)))[i]?) = none := by
    rw [List.findSome?_eq_none_iff]
    intro i _
    rw [List.getElem?_map]
    cases rs[i]? <;> rfl
  rw [hn]
  simp only [ht, Bool.false_eq_true, if_false, List.map_map]
  rfl

/-- C43: if any job of the phase fails, every schedule raises, and what is raised is the exception
of one of the jobs (or the timeout). -/
theorem C43_failure_surfaces {func : C → Except PyErr R} {cs : List C} {c : C} {e : PyErr}
    (hc : c ∈ cs) (he : func c = .error e) {sched : Schedule} (hv : sched.Valid cs.length) :
    ∃ e', runParallel sched func cs = .error e' ∧
      ((∃ c' ∈ cs, func c' = .error e') ∨ (sched.timedOut = true ∧ e' = .other)) := by
  rw [runParallel_eq]
  split
  · next e' he' =>
    obtain ⟨i, _, hi⟩ := List.exists_of_findSome?_eq_some he'
    refine ⟨e', rfl, .inl ?_⟩
    rw [List.getElem?_map] at hi
    cases hx : cs[i]? with
    | none => rw [hx] at hi; simp [failedWith] at hi
    | some c' =>
      rw [hx] at hi
      simp only [Option.map_some] at hi
      refine ⟨c', List.mem_of_getElem? hx, ?_⟩
      cases hf : func c' with
      | error x => rw [hf] at hi; simpa [failedWith] using hi
      | ok r => rw [hf] at hi; simp [failedWith] at hi
  · next hn =>
    rcases hv with ht | hp
    · exact ⟨.other, by simp [ht], .inr ⟨ht, rfl⟩⟩
    · exfalso
      rw [List.findSome?_eq_none_iff] at hn
      obtain ⟨i, hi, rfl⟩ := List.getElem_of_mem hc
      have := hn i (hp.mem_iff.2 (List.mem_range.2 hi))
      rw [List.getElem?_map, List.getElem?_eq_getElem hi, Option.map_some, he] at this
      simp [failedWith] at this

/-- A timeout never yields partial results. -/
theorem C43_timeout_raises (func : C → Except PyErr R) (cs : List C) (sched : Schedule)
    (ht : sched.timedOut = true) : ∃ e, runParallel sched func cs = .error e := by
  rw [runParallel_eq]
  split
  · exact ⟨_, rfl⟩
  · exact ⟨.other, by simp [ht]⟩

/-- How a task list is split into the three phases (non-negative splits). -/
theorem phases (cs : List C) {fs fp : ℤ} (h1 : 0 ≤ fs) (h2 : 0 ≤ fp) :
    sliceTo cs fs = cs.take fs.toNat ∧
    slice cs fs (fs + fp) = (cs.drop fs.toNat).take fp.toNat ∧
    sliceFrom cs (fs + fp) = cs.drop (fs.toNat + fp.toNat) := by
  unfold sliceTo slice sliceFrom
  rw [sliceIdx_nonneg h1, sliceIdx_nonneg (by omega : 0 ≤ fs + fp), Int.toNat_add h1 h2]
  refine ⟨?_, ?_, ?_⟩
  · rcases Nat.le_total fs.toNat cs.length with h | h
    · rw [min_eq_left h]
    · rw [min_eq_right h, List.take_length, List.take_of_length_le h]
  · rcases Nat.le_total (fs.toNat + fp.toNat) cs.length with h | h
    · rw [min_eq_left h, min_eq_left (by omega), List.take_drop]
    · rw [min_eq_right h, List.take_length]
      rcases Nat.le_total fs.toNat cs.length with h' | h'
      · rw [min_eq_left h', List.take_of_length_le (by simp; omega)]
      · rw [min_eq_right h', List.drop_length, List.drop_of_length_le h', List.take_nil]
  · rcases Nat.le_total (fs.toNat + fp.toNat) cs.length with h | h
    · rw [min_eq_left h]
    · rw [min_eq_right h, List.drop_length, List.drop_of_length_le h]

/-- C43: for all front-serial/front-parallel splits and all completion orders of both phases, the
results are those of serial execution, in submission order. -/
theorem C43_schedule_independent {func : C → Except PyErr R} {cs : List C} {rs : List R}
    (hok : runSerial func cs = .ok rs) {fs fp : ℤ} (hfs : 0 ≤ fs) (hfp : 0 ≤ fp)
    {s1 s2 : Schedule} (hv1 : s1.Valid ((cs.drop fs.toNat).take fp.toNat).length)
    (ht1 : s1.timedOut = false) (hv2 : s2.Valid (cs.drop (fs.toNat + fp.toNat)).length)
    (ht2 : s2.timedOut = false) :
    parallelProcess s1 s2 func cs fs fp = .ok (rs.map Sum.inr) := by
  unfold runSerial at hok
  rw [mapM_ok] at hok
  obtain ⟨e1, e2, e3⟩ := phases cs hfs hfp
  unfold parallelProcess frontSerial frontParallel
  rw [e1, e2, e3]
  have p1 : (cs.take fs.toNat).mapM func = .ok (rs.take fs.toNat) := by
    rw [mapM_ok, List.map_take, List.map_take, hok]
  have p2 : runParallel s1 func ((cs.drop fs.toNat).take fp.toNat)
      = .ok (((rs.drop fs.toNat).take fp.toNat).map Sum.inr) := by
    apply C43_parallel_phase _ hv1 ht1
    rw [List.map_take, List.map_drop, List.map_take, List.map_drop, hok]
  have p3 : runParallel s2 func (cs.drop (fs.toNat + fp.toNat))
      = .ok ((rs.drop (fs.toNat + fp.toNat)).map Sum.inr) := by
    apply C43_parallel_phase _ hv2 ht2
    rw [List.map_drop, List.map_drop, hok]
  have q1 : (if fs > 0 then runSerial func (cs.take fs.toNat) else pure [])
      = Except.ok (ε := PyErr) (rs.take fs.toNat) := by
    split
    · exact p1
    · rw [show fs.toNat = 0 by omega, List.take_zero]; rfl
  have q2 : (if fp > 0 then runParallel s1 func ((cs.drop fs.toNat).take fp.toNat) else pure [])
      = Except.ok (ε := PyErr) (((rs.drop fs.toNat).take fp.toNat).map Sum.inr) := by
    split
    · exact p2
    · rw [show fp.toNat = 0 by omega, List.take_zero]; rfl
  rw [q1, bind_ok, q2, bind_ok, p3, bind_ok, pure_ok]
  rw [← List.map_append, ← List.map_append, List.append_assoc, ← List.drop_drop,
    List.take_append_drop, List.take_append_drop]

/-- C43: a failing task surfaces as an exception whatever the split and the schedules. -/
theorem C43_any_failure_raises {func : C → Except PyErr R} {cs : List C} {c : C} {e : PyErr}
    (hc : c ∈ cs) (he : func c = .error e) {fs fp : ℤ} (hfs : 0 ≤ fs) (hfp : 0 ≤ fp)
    {s1 s2 : Schedule} (hv1 : s1.Valid ((cs.drop fs.toNat).take fp.toNat).length)
    (hv2 : s2.Valid (cs.drop (fs.toNat + fp.toNat)).length) :
    ∃ e', parallelProcess s1 s2 func cs fs fp = .error e' := by
  obtain ⟨e1, e2, e3⟩ := phases cs hfs hfp
  cases hres : parallelProcess s1 s2 func cs fs fp with
  | error e' => exact ⟨e', rfl⟩
  | ok out =>
    exfalso
    unfold parallelProcess frontSerial frontParallel at hres
    rw [e1, e2, e3, bind_eq_ok] at hres
    obtain ⟨r1, h1, hres⟩ := hres
    rw [bind_eq_ok] at hres
    obtain ⟨r2, h2, hres⟩ := hres
    rw [bind_eq_ok] at hres
    obtain ⟨r3, h3, _⟩ := hres
    have hsplit : cs = cs.take fs.toNat ++ ((cs.drop fs.toNat).take fp.toNat
        ++ cs.drop (fs.toNat + fp.toNat)) := by
      rw [← List.drop_drop, List.take_append_drop, List.take_append_drop]
    rw [hsplit, List.mem_append, List.mem_append] at hc
    rcases hc with hc | hc | hc
    · have hpos : fs > 0 := by
        rcases Int.lt_or_le 0 fs with h | h
        · exact h
        · rw [show fs.toNat = 0 by omega] at hc; simp at hc
      rw [if_pos hpos] at h1
      unfold runSerial at h1
      rw [mapM_ok] at h1
      have : func c ∈ (cs.take fs.toNat).map func := List.mem_map_of_mem hc
      rw [h1, he] at this
      simp [failedWith] at this
    · have hpos : fp > 0 := by
        rcases Int.lt_or_le 0 fp with h | h
        · exact h
        · rw [show fp.toNat = 0 by omega] at hc; simp at hc
      rw [if_pos hpos] at h2
      obtain ⟨e', h', _⟩ := C43_failure_surfaces hc he hv1
      rw [h'] at h2; cases h2
    · obtain ⟨e', h', _⟩ := C43_failure_surfaces hc he hv2
      rw [h'] at h3; cases h3

/-- Without a pool the front-serial results come last: the exact result. -/
theorem C43_serial_result {func : C → Except PyErr R} {cs : List C} {rs : List R}
    (hok : runSerial func cs = .ok rs) {fs : ℤ} (hfs : 0 ≤ fs) :
    serialProcess func cs fs = .ok (rs.drop fs.toNat ++ rs.take fs.toNat) := by
  unfold runSerial at hok
  rw [mapM_ok] at hok
  obtain ⟨e1, _, e3⟩ := phases cs hfs (Int.le_refl 0)
  simp only [Int.add_zero, Int.toNat_zero, Nat.add_zero] at e3
  unfold serialProcess frontSerial
  rw [e1, e3]
  have q1 : (if fs > 0 then runSerial func (cs.take fs.toNat) else pure [])
      = Except.ok (ε := PyErr) (rs.take fs.toNat) := by
    split
    · unfold runSerial; rw [mapM_ok, List.map_take, List.map_take, hok]
    · rw [show fs.toNat = 0 by omega, List.take_zero]; rfl
  have q2 : runSerial func (cs.drop fs.toNat) = .ok (rs.drop fs.toNat) := by
    unfold runSerial; rw [mapM_ok, List.map_drop, List.map_drop, hok]
  rw [q1, bind_ok, q2, bind_ok]
  rfl

/-- What holds of the pool-less mode: no result is lost or repeated, and without front-serial runs
the order is right. -/
theorem C43_serial_partial {func : C → Except PyErr R} {cs : List C} {rs : List R}
    (hok : runSerial func cs = .ok rs) {fs : ℤ} (hfs : 0 ≤ fs) :
    ∃ out, serialProcess func cs fs = .ok out ∧ out.Perm rs ∧ (fs = 0 → out = rs) := by
  refine ⟨_, C43_serial_result hok hfs, ?_, ?_⟩
  · refine List.perm_append_comm.trans ?_
    rw [List.take_append_drop]
  · rintro rfl; simp

/-- C43 fails for the pool-less mode: with the default `front_serial=3` the results of four tasks
come back rotated. -/
theorem C43_serial_false :
    runSerial (fun n : ℕ => Except.ok (ε := PyErr) n) [0, 1, 2, 3] = .ok [0, 1, 2, 3] ∧
    serialProcess (fun n : ℕ => Except.ok (ε := PyErr) n) [0, 1, 2, 3] 3 = .ok [3, 0, 1, 2] :=
  ⟨rfl, rfl⟩

/-- A non-trivial schedule: two front-parallel tasks finishing in reverse, then the other two. -/
example : Schedule.Valid ⟨[1, 0], false⟩ ((([0, 1, 2, 3, 4] : List ℕ).drop (1 : ℤ).toNat).take (2 : ℤ).toNat).length :=
  .inr (by simp [List.range, List.range.loop]; exact List.Perm.swap 0 1 [])

example : parallelProcess ⟨[1, 0], false⟩ ⟨[1, 0], false⟩ (fun n : ℕ => Except.ok (ε := PyErr) (n * n)) [0, 1, 2, 3, 4] 1 2
    = .ok [.inr 0, .inr 1, .inr 4, .inr 9, .inr 16] := rfl

end C43

/-! ## C42: batching -/

section C42
variable {S C St Row : Type}

theorem batches_flatten {n : ℕ} (hn : 0 < n) (cfgs : List C) : (batches n cfgs).flatten = cfgs := by
  unfold batches
  have key : ∀ k, ((List.range k).map fun j => (cfgs.drop (j * n)).take n).flatten = cfgs.take (k * n) := by
    intro k
    induction k with
    | zero => simp
    | succ k ih =>
      rw [List.range_succ, List.map_append, List.flatten_append, ih]
      simp only [List.map_cons, List.map_nil, List.flatten_cons, List.flatten_nil, List.append_nil]
      rw [Nat.succ_mul, List.take_add]
  rw [key, List.take_of_length_le]
  have := Nat.div_add_mod (cfgs.length + n - 1) n
  have h2 := Nat.mod_lt (cfgs.length + n - 1) hn
  have h3 : n * ((cfgs.length + n - 1) / n) = (cfgs.length + n - 1) / n * n := Nat.mul_comm _ _
  omega

theorem batches_bound {n : ℕ} (hn : 0 < n) (cfgs : List C) :
    ∀ b ∈ batches n cfgs, b ≠ [] ∧ b.length ≤ n := by
  intro b hb
  unfold batches at hb
  obtain ⟨j, hj, rfl⟩ := List.mem_map.1 hb
  rw [List.mem_range, Nat.lt_iff_add_one_le, Nat.le_div_iff_mul_le hn, Nat.add_mul, Nat.one_mul] at hj
  constructor
  · intro h
    have := congrArg List.length h
    simp at this
    omega
  · simp; omega

/-- The batch size is at least one whenever batching is used. -/
theorem batch_size_pos {s c : ℕ} {w : ℤ} (h : ¬ (w ≤ s ∨ (c * s : ℤ) < w)) :
    0 < ((c * s : ℤ) / w).toNat := by
  push Not at h
  have hw : 0 < w := by have := Int.natCast_nonneg s; omega
  have : 1 ≤ (c * s : ℤ) / w := (Int.le_ediv_iff_mul_le hw).2 (by omega)
  omega

/-- C42: the batches contain every (scenario, configuration) pair exactly once, scenario by scenario,
configurations in the given order; for every number of workers. -/
theorem C42_pairs (scendata : List S) (cfgs : List C) (w : ℤ) :
    (makeRuns scendata cfgs w).flatMap (fun r => r.cfgs.map fun c => (r.scen, c)) =
      scendata.flatMap fun s => cfgs.map fun c => (s, c) := by
  unfold makeRuns
  split
  · rw [List.flatMap_map]
  · next h =>
    have hb := batch_size_pos h
    rw [List.flatMap_assoc]
    congr 1
    funext s
    rw [List.flatMap_map]
    conv_rhs => rw [← batches_flatten hb cfgs]
    rw [List.map_flatten, List.flatMap_def]

/-- C42: no worker gets an empty batch (when there are configurations). -/
theorem C42_no_empty_batch (scendata : List S) (cfgs : List C) (hc : cfgs ≠ []) (w : ℤ) :
    ∀ r ∈ makeRuns scendata cfgs w, r.cfgs ≠ [] := by
  intro r hr
  unfold makeRuns at hr
  split at hr
  · obtain ⟨s, _, rfl⟩ := List.mem_map.1 hr
    exact hc
  · next h =>
    obtain ⟨s, _, hr⟩ := List.mem_flatMap.1 hr
    obtain ⟨b, hb, rfl⟩ := List.mem_map.1 hr
    exact (batches_bound (batch_size_pos h) cfgs b hb).1

/-- A model instance whose output for a configuration does not depend on what it ran before (that is
property C03 of the model): `rows s c` is what scenario `s` gives under configuration `c`. -/
structure HistoryFree (init : S → Except PyErr St) (step : St → C → Except PyErr (St × List Row))
    (rows : S → C → List Row) (scendata : List S) (cfgs : List C) : Prop where
  /-- building succeeds -/
  start : ∀ s ∈ scendata, ∃ st, init s = .ok st
  /-- in every state reachable for scenario `s`, each configuration runs and gives the same rows -/
  run : ∀ s ∈ scendata, ∃ Reach : St → Prop, (∀ st, init s = .ok st → Reach st) ∧
    ∀ st c, Reach st → c ∈ cfgs → ∃ st', step st c = .ok (st', rows s c) ∧ Reach st'
  /-- there is something to report -/
  nonempty : ∀ s ∈ scendata, ∀ c ∈ cfgs, rows s c ≠ []

theorem runOverCfgs_ok {step : St → C → Except PyErr (St × List Row)} {rws : C → List Row}
    {Reach : St → Prop} (all : List C)
    (h : ∀ st c, Reach st → c ∈ all → ∃ st', step st c = .ok (st', rws c) ∧ Reach st')
    (hne : ∀ c ∈ all, rws c ≠ []) (cs : List C) (hsub : ∀ c ∈ cs, c ∈ all) (hcs : cs ≠ [])
    (st : St) (hst : Reach st) : runOverCfgs step st cs = .ok (cs.flatMap rws) := by
  unfold runOverCfgs
  have key : ∀ (cs : List C) (st : St) (acc : List Row), Reach st → (∀ c ∈ cs, c ∈ all) →
      ∃ st', cs.foldlM (fun (acc : St × List Row) c => do
        let (st, rows) ← step acc.1 c
        return (st, acc.2 ++ rows)) (st, acc) = Except.ok (ε := PyErr) (st', acc ++ cs.flatMap rws) := by
    intro cs
    induction cs with
    | nil => intro st acc _ _; exact ⟨st, by simp [pure_ok]⟩
    | cons c cs ih =>
      intro st acc hr hs
      obtain ⟨st', h1, h2⟩ := h st c hr (hs c (by simp))
      obtain ⟨st'', h3⟩ := ih st' (acc ++ rws c) h2 (fun c' hc' => hs c' (by simp [hc']))
      refine ⟨st'', ?_⟩
      rw [List.foldlM_cons]
      simp only [h1, bind_ok, pure_ok]
      erw [h3]
      simp
  obtain ⟨st', h1⟩ := key cs st [] hst hsub
  rw [h1, bind_ok]
  simp only [List.nil_append]
  rw [if_neg]
  · rfl
  · obtain ⟨c, cs', rfl⟩ := List.exists_cons_of_ne_nil hcs
    have := hne c (hsub c (by simp))
    cases hr : rws c with
    | nil => exact absurd hr this
    | cons x xs => simp [hr]

/-- C42: the concatenated result is scenario-major, in the given order, and the same for every
number of workers and every completion order. -/
theorem C42_result {init : S → Except PyErr St} {step : St → C → Except PyErr (St × List Row)}
    {rows : S → C → List Row} {scendata : List S} {cfgs : List C}
    (hs : scendata ≠ []) (hc : cfgs ≠ []) (hfree : HistoryFree init step rows scendata cfgs)
    {w : ℤ} (hw : 1 ≤ w) {sched : Schedule} (hv : sched.Valid (makeRuns scendata cfgs w).length)
    (ht : sched.timedOut = false) :
    runCiceroscmParallel sched init step scendata cfgs w
      = .ok (scendata.flatMap fun s => cfgs.flatMap fun c => rows s c) := by
  have hmem : ∀ r ∈ makeRuns scendata cfgs w, r.scen ∈ scendata ∧ ∀ c ∈ r.cfgs, c ∈ cfgs := by
    intro r hr
    unfold makeRuns at hr
    split at hr
    · obtain ⟨s, hs, rfl⟩ := List.mem_map.1 hr
      exact ⟨hs, fun c h => h⟩
    · next h =>
      obtain ⟨s, hs, hr⟩ := List.mem_flatMap.1 hr
      obtain ⟨b, hb, rfl⟩ := List.mem_map.1 hr
      refine ⟨hs, fun c h' => ?_⟩
      rw [← batches_flatten (batch_size_pos h) cfgs]
      exact List.mem_flatten.2 ⟨b, hb, h'⟩
  have hrun : ∀ r ∈ makeRuns scendata cfgs w,
      executeRun init step r = .ok (r.cfgs.flatMap (rows r.scen)) := by
    intro r hr
    obtain ⟨h1, h2⟩ := hmem r hr
    obtain ⟨st, hst⟩ := hfree.start r.scen h1
    obtain ⟨Reach, hR, hstep⟩ := hfree.run r.scen h1
    unfold executeRun
    rw [hst, bind_ok]
    exact runOverCfgs_ok cfgs hstep (hfree.nonempty r.scen h1) r.cfgs h2
      (C42_no_empty_batch scendata cfgs hc w r hr) st (hR st hst)
  have hser : (makeRuns scendata cfgs w).mapM (executeRun init step)
      = .ok ((makeRuns scendata cfgs w).map fun r => r.cfgs.flatMap (rows r.scen)) := by
    rw [mapM_ok, List.map_map]
    apply List.map_congr_left
    intro r hr
    exact hrun r hr
  have hne : (makeRuns scendata cfgs w) ≠ [] := by
    intro h
    have := C42_pairs scendata cfgs w
    rw [h] at this
    obtain ⟨s, ss, rfl⟩ := List.exists_cons_of_ne_nil hs
    obtain ⟨c, cc, rfl⟩ := List.exists_cons_of_ne_nil hc
    simp at this
  have hcat : concat ((makeRuns scendata cfgs w).map fun r => r.cfgs.flatMap (rows r.scen))
      = .ok (scendata.flatMap fun s => cfgs.flatMap fun c => rows s c) := by
    unfold concat
    rw [if_neg (by simpa using hne), pure_ok]
    congr 1
    have h := congrArg (fun l => l.flatMap (fun p : S × C => rows p.1 p.2)) (C42_pairs scendata cfgs w)
    simp only [List.flatMap_assoc, List.flatMap_map] at h
    rw [← List.flatMap_def]
    exact h
  unfold runCiceroscmParallel
  by_cases hw1 : w = 1
  · simp only [hw1, if_true] at *
    rw [hser, bind_ok, hcat]
  · simp only [hw1, if_false]
    rw [if_neg (by omega)]
    have hp := C43_schedule_independent (s1 := ⟨[], false⟩) (s2 := sched) (fs := 0) (fp := 0)
      (show runSerial (executeRun init step) (makeRuns scendata cfgs w) = _ from hser)
      (Int.le_refl _) (Int.le_refl _) (.inr (by simp)) rfl (by simpa using hv) ht
    rw [hp, bind_ok, List.mapM_map]
    have : (((makeRuns scendata cfgs w).map fun r => r.cfgs.flatMap (rows r.scen))).mapM
        (unwrap ∘ Sum.inr)
        = .ok ((makeRuns scendata cfgs w).map fun r => r.cfgs.flatMap (rows r.scen)) := by
      rw [mapM_ok]
      rfl
    rw [this, bind_ok, hcat]

/-- C42: the number of workers does not matter. -/
theorem C42_worker_independent {init : S → Except PyErr St} {step : St → C → Except PyErr (St × List Row)}
    {rows : S → C → List Row} {scendata : List S} {cfgs : List C}
    (hs : scendata ≠ []) (hc : cfgs ≠ []) (hfree : HistoryFree init step rows scendata cfgs)
    {w w' : ℤ} (hw : 1 ≤ w) (hw' : 1 ≤ w') {sched sched' : Schedule}
    (hv : sched.Valid (makeRuns scendata cfgs w).length) (ht : sched.timedOut = false)
    (hv' : sched'.Valid (makeRuns scendata cfgs w').length) (ht' : sched'.timedOut = false) :
    runCiceroscmParallel sched init step scendata cfgs w
      = runCiceroscmParallel sched' init step scendata cfgs w' := by
  rw [C42_result hs hc hfree hw hv ht, C42_result hs hc hfree hw' hv' ht']

/-- Without history-freeness the claim is false: an instance that remembers its previous
configuration gives different results for one and two workers. (That the real model does remember
carbon parameters is C03.) -/
theorem C42_needs_history_free :
    let init : Unit → Except PyErr ℕ := fun _ => .ok 0
    let step : ℕ → ℕ → Except PyErr (ℕ × List ℕ) := fun st c => .ok (st + c, [st + c])
    runCiceroscmParallel ⟨[0, 1], false⟩ init step [()] [5, 6] 1 = .ok [5, 11] ∧
    runCiceroscmParallel ⟨[0, 1], false⟩ init step [()] [5, 6] 2 = .ok [5, 6] :=
  ⟨rfl, rfl⟩

/-- Non-vacuity: three scenarios, five configurations, four workers. -/
example : HistoryFree (fun s : ℕ => Except.ok (ε := PyErr) s)
    (fun st (c : ℕ) => .ok (st, [10 * st + c])) (fun s c => [10 * s + c]) [1, 2, 3] [1, 2, 3, 4, 5] := by
  refine ⟨fun s _ => ⟨s, rfl⟩, fun s _ => ⟨fun st => st = s, ?_, ?_⟩, fun _ _ _ _ => by simp⟩
  · rintro st h; cases h; rfl
  · rintro st c rfl _; exact ⟨st, rfl, rfl⟩

example : (makeRuns [1, 2, 3] [1, 2, 3, 4, 5] 4).map (fun r => (r.scen, r.cfgs)) =
    [(1, [1, 2, 3]), (1, [4, 5]), (2, [1, 2, 3]), (2, [4, 5]), (3, [1, 2, 3]), (3, [4, 5])] := rfl

end C42
end Verif.Props
