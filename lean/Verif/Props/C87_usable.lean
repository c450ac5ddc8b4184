import Verif.Lemmas.CompleteConstruct
import Verif.Lemmas.CarbonRun
import Verif.Props.C27
import Verif.Props.C86
import Verif.Props.C87

/-!
# C87: configurations drawn from the default distribution are accepted by the default carbon cycle model
-/

namespace Verif.Props
open Verif.Py Verif.Py.Dict Verif.Model Verif.Model.ConfigDistro Verif.Model.Sampling Verif.Model.CarbonInst
open Verif.Spec Verif.Spec.Response Verif.Props.FlatPams

/-! ## Helpers -/

theorem sampleStep_wf {forc : Bool} {row : ℕ → ℝ} {s : Sets ℝ} {p : String × ℕ} (h : WF s.carbon) :
    WF (sampleStep forc row s p).carbon := by
  unfold sampleStep
  split
  · exact h
  split
  · exact WF_set _ _ _ h
  split
  · exact WF_set _ _ _ h
  split <;> exact h

theorem sampleFold_wf {forc : Bool} {row : ℕ → ℝ} : ∀ (l : List (String × ℕ)) {s : Sets ℝ}, WF s.carbon →
    WF (l.foldl (sampleStep forc row) s).carbon
  | [], _, h => h
  | p :: l, _, h => sampleFold_wf l (sampleStep_wf (p := p) h)

/-- A key that is flat for a prefix, decided. -/
def flatB (pre key : String) : Bool :=
  pre.toList.isPrefixOf key.toList && (key.toList.drop pre.toList.length).all Char.isDigit &&
    !(key.toList.drop pre.toList.length).isEmpty

theorem flatB_of {pre key : String} (h : IsFlat pre key) : flatB pre key = true := by
  obtain ⟨ds, e, hne, hd⟩ := h
  unfold flatB
  rw [e]
  simp only [List.drop_left, Bool.and_eq_true, List.all_eq_true]
  refine ⟨⟨?_, hd⟩, ?_⟩
  · simp
  · cases ds with
    | nil => exact absurd rfl hne
    | cons _ _ => rfl

/-- The names of the default prior. -/
noncomputable def priorNames : List String := Dict.keys (priorFlat : Dict (List ℝ))

theorem flat_names (pre : String) (n : ℕ)
    (hp : (pre, n) ∈ [("rb_coef", 3), ("rb_tim", 3), ("rs_coef", 4), ("rs_tim", 3)]) (key : String)
    (hk : key ∈ priorNames) (hf : IsFlat pre key) : ∃ i ∈ List.range n, key = flatKey pre i := by
  have hb := flatB_of hf
  have all : ∀ q ∈ [("rb_coef", 3), ("rb_tim", 3), ("rs_coef", 4), ("rs_tim", 3)], ∀ key ∈ priorNames,
      flatB q.1 key = true → ∃ i ∈ List.range q.2, key = flatKey q.1 i := by
    have e : priorNames = ["rlamdo", "akapa", "cpi", "W", "beto", "lambda", "mixed", "ocean_efficacy", "delta_lambda_aero",
      "qbmb", "qo3", "qdirso2", "qindso2", "qbc", "qoc", "qh2o_ch4", "beta_f", "mixed_carbon", "ml_w_sigmoid",
      "ml_fracmax", "ml_t_half", "npp0", "t_half", "w_sigmoid", "t_threshold", "w_threshold", "solubility_sens",
      "solubility_limit", "rb_coef0", "rb_coef1", "rb_coef2", "rb_tim0", "rb_tim1", "rb_tim2", "rs_coef0", "rs_coef1",
      "rs_coef2", "rs_coef3", "rs_tim0", "rs_tim1", "rs_tim2"] := rfl
    rw [e]
    decide +kernel
  exact all _ hp key hk hb

/-- The carbon set of a configuration, as the model receives it. -/
def asPams (cd : Dict ℝ) : Dict (PyVal ℝ) := cd.map fun kv => (kv.1, .flt kv.2)

/-- The values with the numbered keys of a prefix. -/
noncomputable def listed (cd : Dict ℝ) (pre : String) (n : ℕ) : List ℝ :=
  (List.range n).map fun i => (get? cd (pre ++ toString i)).getD 0

theorem get?_map_val {A B : Type} (g : A → B) (d : Dict A) (k : String) :
    get? (d.map (fun kv => (kv.1, g kv.2)) : Dict B) k = (get? d k).map g := by
  induction d with
  | nil => rfl
  | cons kv d ih =>
    rw [List.map_cons, get?_cons, ih, show (kv :: d) = (kv.1, kv.2) :: d from rfl, get?_cons]
    split <;> rfl

theorem keys_map_val {A B : Type} (g : A → B) (d : Dict A) :
    keys (d.map (fun kv => (kv.1, g kv.2)) : Dict B) = keys d := by
  unfold keys
  rw [List.map_map]
  rfl

theorem listed_gives {cd : Dict ℝ} {pre : String} {n : ℕ}
    (hall : ∀ i < n, ∃ x, get? cd (pre ++ toString i) = some x)
    (honly : ∀ key ∈ keys cd, IsFlat pre key → ∃ i ∈ List.range n, key = flatKey pre i) :
    GivesFlat isNoneP ((asPams cd).map (fun kv => (kv.1, Flat.PVal.val kv.2))) pre (List.range n)
      ((listed cd pre n).map fun x => Flat.PVal.val (.flt x)) := by
  refine ⟨by simp [listed], List.pairwise_lt_range, fun j h h' => ?_, fun key hk => ?_, ?_⟩
  · simp only [List.length_range] at h
    obtain ⟨x, hx⟩ := hall j h
    rw [get?_map_val, asPams, get?_map_val]
    simp only [List.getElem_range, List.getElem_map, listed, flatKey, hx, Option.map_some, Option.getD_some]
  · rw [keys_map_val, asPams, keys_map_val] at hk
    exact honly key hk
  · intro x hx
    obtain ⟨y, -, rfl⟩ := List.mem_map.1 hx
    rfl

theorem mapM_coefOf (l : List ℝ) : (l.map fun x => Flat.PVal.val (PyVal.flt x)).mapM coefOf = .ok l := by
  rw [mapM_ok, List.map_map]
  apply List.map_congr_left
  intro x _
  rfl

theorem unflat_fn (c t : List ℝ) : unflat (.fn (c.map fun x => Flat.PVal.val (PyVal.flt x))
    (t.map fun x => Flat.PVal.val (PyVal.flt x))) = .ok (.rfun c t) := by
  unfold unflat
  simp only [mapM_coefOf]
  rfl

theorem listed_ne {cd : Dict ℝ} {pre : String} {n : ℕ} (hn : 0 < n) :
    (listed cd pre n).map (fun x => Flat.PVal.val (PyVal.flt x)) ≠ [] := by
  intro h
  have := congrArg List.length h
  simp [listed] at this
  omega

/-- Numbered keys become the two response functions. -/
theorem processFlat_listed {cd : Dict ℝ} (hw : WF cd)
    (hall : ∀ pre n, (pre, n) ∈ [("rb_coef", 3), ("rb_tim", 3), ("rs_coef", 4), ("rs_tim", 3)] →
      (∀ i < n, ∃ x, get? cd (pre ++ toString i) = some x) ∧
      ∀ key ∈ keys cd, IsFlat pre key → ∃ i ∈ List.range n, key = flatKey pre i) :
    ∃ new, CarbonInst.processFlat (asPams cd) = .ok new ∧
      get? new "rb_function" = some (.rfun (listed cd "rb_coef" 3) (listed cd "rb_tim" 3)) ∧
      get? new "rs_function" = some (.rfun (listed cd "rs_coef" 4) (listed cd "rs_tim" 3)) := by
  have g := fun pre n hp => listed_gives (hall pre n hp).1 (hall pre n hp).2
  have hwq : WF ((asPams cd).map (fun kv => (kv.1, Flat.PVal.val kv.2)) : Dict (Flat.PVal (PyVal ℝ))) := by
    unfold WF
    rw [keys_map_val, asPams, keys_map_val]
    exact hw
  obtain ⟨r, hr, h1, h2, h3, h4⟩ := C27_flat_to_structured (isNone := isNoneP) _ hwq _ _ _ _ _ _ _ _
    (g "rb_coef" 3 (by simp)) (g "rb_tim" 3 (by simp)) (g "rs_coef" 4 (by simp)) (g "rs_tim" 3 (by simp))
    (by simp [listed]) (.inl (by simp [listed]))
  rw [if_neg (listed_ne (by norm_num))] at h2 h3
  have hwr := processFlat_wf hwq hr
  have hok : ∀ kv ∈ r, ∃ y, (do return (kv.1, ← unflat kv.2) : Except PyErr (String × PyVal ℝ)) = .ok y := by
    rintro ⟨key, v⟩ hkv
    have hg := get?_of_mem hwr hkv
    by_cases e1 : key = "rb_function"
    · subst e1
      rw [h2, Option.some.injEq] at hg
      subst hg
      exact ⟨("rb_function", _), by simp only [unflat_fn, bind_ok, pure_ok]; rfl⟩
    by_cases e2 : key = "rs_function"
    · subst e2
      rw [h3, Option.some.injEq] at hg
      subst hg
      exact ⟨("rs_function", _), by simp only [unflat_fn, bind_ok, pure_ok]; rfl⟩
    by_cases e3 : IsAnyFlat key
    · rw [h1 key e3] at hg; cases hg
    · rw [h4 key e3 e1 e2, get?_map_val] at hg
      obtain ⟨w, -, rfl⟩ := Option.map_eq_some_iff.1 hg
      exact ⟨(key, w), rfl⟩
  obtain ⟨new, hnew, -⟩ := mapM_exists r hok
  obtain ⟨-, m2⟩ := mapM_dict hnew
  refine ⟨new, ?_, ?_, ?_⟩
  · unfold CarbonInst.processFlat
    rw [hr, bind_ok]
    exact hnew
  · obtain ⟨w, w1, w2⟩ := m2 _ _ h2
    rw [unflat_fn, Except.ok.injEq] at w1
    rw [w2, w1]
  · obtain ⟨w, w1, w2⟩ := m2 _ _ h3
    rw [unflat_fn, Except.ok.injEq] at w1
    rw [w2, w1]

/-! ## Property -/

/-- The sampled interval of a response parameter is in the positive numbers. -/
theorem response_positive (pre : String) (n : ℕ)
    (hp : (pre, n) ∈ [("rb_coef", 3), ("rb_tim", 3), ("rs_coef", 4), ("rs_tim", 3)]) (i : ℕ) (hi : i < n) :
    Sampled (priorFlat : Dict (List ℝ)) (setValuesDefault : Dict ℝ) false (pre ++ toString i) ∧
    IsHome (pre ++ toString i) .carbon ∧
    ∀ lo hi : ℝ, get? priorFlat (pre ++ toString i) = some [lo, hi] → 0 ≤ lo := by
  have hc : ∀ q ∈ [("rb_coef", 3), ("rb_tim", 3), ("rs_coef", 4), ("rs_tim", 3)], ∀ i < q.2,
      Sampled (priorFlat : Dict (List ℝ)) (setValuesDefault : Dict ℝ) false (q.1 ++ toString i) := by
    have e1 : keys (priorFlat : Dict (List ℝ)) = keys (priorFlat : Dict (List ℚ)) := rfl
    have e2 : keys (setValuesDefault : Dict ℝ) = keys (setValuesDefault : Dict ℚ) := rfl
    unfold Sampled
    rw [e1, e2]
    decide +kernel
  have ht : ∀ q ∈ [("rb_coef", 3), ("rb_tim", 3), ("rs_coef", 4), ("rs_tim", 3)], ∀ i < q.2,
      q.1 ++ toString i ∉ thermalDocumented ∧ startsRbRs (q.1 ++ toString i) = true := by decide +kernel
  refine ⟨hc _ hp i hi, .carbon (ht _ hp i hi).1 (.inr ((startsRbRs_iff _).1 (ht _ hp i hi).2)), ?_⟩
  have hpos : ∀ p ∈ (priorFlat : Dict (List ℝ)), startsRbRs p.1 = true → ∀ lo hi : ℝ, p.2 = [lo, hi] → 0 ≤ lo := by
    simp only [priorFlat, List.forall_mem_cons]
    repeat' apply And.intro
    all_goals first
      | (intro h; exact absurd h (by decide))
      | (rintro - lo hi h
         simp only [List.cons.injEq] at h
         rw [← h.1]
         norm_num)
      | simp
  intro lo hi h
  exact hpos _ (mem_of_get? h) (ht _ hp i ‹_›).2 lo hi rfl

/-- The carbon set of a configuration of the default distribution. -/
theorem default_carbon {cfg : Config ℝ} {row : ℕ → ℝ}
    (hsets : cfg.sets = sampleSets (init false (keys (priorFlat : Dict (List ℝ))) setValuesDefault) row) :
    WF cfg.sets.carbon ∧ ∀ key ∈ keys cfg.sets.carbon, key ∈ priorNames := by
  have hwc : WF cfg.sets.carbon := by
    rw [hsets]
    refine sampleFold_wf _ ?_
    simp [pamsetsStart, setValuesDefault, init, startStep, orderingStandardForc, carbonRequired, WF, keys]
  have hmem : ∀ key ∈ keys cfg.sets.carbon, key ∈ priorNames := by
    intro key hkey
    by_contra hn
    have hfix : key ∉ keys (setValuesDefault : Dict ℝ) ∨ key ∈ keys (setValuesDefault : Dict ℝ) := by tauto
    rcases hfix with hfix | hfix
    · have := C45_nothing_else false (keys (priorFlat : Dict (List ℝ))) setValuesDefault row key hfix
        (fun ho => hn (mem_ordering (sv := setValuesDefault) (forc := false).1 ho).1) .carbon
      rw [← hsets, setOf, get?_eq_none_iff] at this
      exact this hkey
    · obtain ⟨v, hv⟩ := (get?_isSome_iff _ _).2 hfix
      have hcases : key = "threstemp" ∨ key = "lm" ∨ key = "ldtime" ∨ key = "qbmb" ∨ key = "qh2o_ch4" := by
        simpa [keys, setValuesDefault] using hfix
      have hnr : ¬ IsResponseName key := by
        rw [← startsRbRs_iff]
        rcases hcases with rfl | rfl | rfl | rfl | rfl <;> decide
      have hnh : ¬ IsHome key .carbon := by
        rintro (_ | ⟨_, h2 | h2⟩)
        · rcases hcases with rfl | rfl | rfl | rfl | rfl <;> revert h2 <;> decide
        · exact hnr h2
      have := (C45_fixed_partial false (keys (priorFlat : Dict (List ℝ))) setValuesDefault
        (by simp [WF, keys, setValuesDefault]) row key v hv hnr .carbon).2 hnh
      rw [← hsets, setOf, get?_eq_none_iff] at this
      exact this hkey
  exact ⟨hwc, hmem⟩

/-- C87: every configuration drawn from the default distribution with the default method is accepted by a default carbon
cycle model at any time of its life, and the responses it then has are those of the configuration's numbered parameters. -/
theorem C87_usable (n : ℕ) (u : ℕ → ℕ → ℝ) (hu : ∀ i j, 0 ≤ u i j ∧ u i j ≤ 1) (f : Option String) (pre : String)
    (chunk : Option ℕ) (d : Full ℝ) (r : Lists ℝ) (w : List (Written ℝ))
    (hd : construct none none none none = .ok d) (h : make d n u f pre chunk = .ok (r, w))
    (cfg : Config ℝ) (hc : cfg ∈ allConfigs r)
    {time : Dict (PyVal ℝ)} {ps : List (Option (Dict (PyVal ℝ)))} {k k1 : IR ℝ} (hl : Life time ps k)
    (hk : irOps.reset k none = .ok k1) :
    ∃ k', irOps.reset k (some (asPams cfg.sets.carbon)) = .ok k' ∧
      (∀ i, k'.rb i = rbFunction2 (listed cfg.sets.carbon "rb_coef" 3) (listed cfg.sets.carbon "rb_tim" 3) i k'.idtm.toNat) ∧
      ∀ i, k'.rs i = rsFunction2 (listed cfg.sets.carbon "rs_coef" 4) (listed cfg.sets.carbon "rs_tim" 3) i k'.idtm.toNat := by
  have hw : Dict.WF (priorFlat : Dict (List ℝ)) := by
    simp only [Dict.WF, Dict.keys, priorFlat, List.map_cons, List.map_nil]
    decide
  obtain ⟨-, col, -, hval⟩ := C87_latin priorFlat hw setValuesDefault false none (.inl rfl) d hd n u f pre chunk r w h
  obtain ⟨i0, hi0⟩ := List.mem_iff_getElem?.1 hc
  have hv : ∀ p m, (p, m) ∈ [("rb_coef", 3), ("rb_tim", 3), ("rs_coef", 4), ("rs_tim", 3)] → ∀ i < m,
      ∃ x, get? cfg.sets.carbon (p ++ toString i) = some x ∧ 0 ≤ x := by
    intro p m hp i hi
    obtain ⟨a, b, c⟩ := response_positive p m hp i hi
    obtain ⟨lo, hi', hg, hlt, hx⟩ := hval _ a
    refine ⟨_, (hx i0 cfg hi0 .carbon).1 b, ?_⟩
    have := c lo hi' hg
    have := (hu i0 (col (p ++ toString i))).1
    have : 0 ≤ u i0 (col (p ++ toString i)) * (hi' - lo) := mul_nonneg this (by linarith)
    linarith
  have hsets : ∃ row, cfg.sets = sampleSets (init false (keys (priorFlat : Dict (List ℝ))) setValuesDefault) row := by
    obtain ⟨e1, e2, -⟩ := distribution_made (distro := priorFlat) (sv := setValuesDefault) (forc := false) (m := none) hd
    unfold make at h
    rw [if_pos (show d.method = "latin" from e2)] at h
    unfold scaleLatin at h
    split at h
    · rw [bind_error] at h; cases h
    split at h
    · rw [bind_ok] at h
      exact ⟨_, by rw [(configs_rows h).2 i0 cfg hi0, e1]⟩
    · rw [bind_error] at h; cases h
  obtain ⟨row, hsets⟩ := hsets
  obtain ⟨hwc, hmem⟩ := default_carbon hsets
  obtain ⟨new, hnew, g1, g2⟩ := processFlat_listed hwc fun p m hp =>
    ⟨fun i hi => (hv p m hp i hi).imp fun _ hx => hx.1, fun key hkey hf => flat_names p m hp key (hmem key hkey) hf⟩
  have hnn : ∀ p m, (p, m) ∈ [("rb_coef", 3), ("rb_tim", 3), ("rs_coef", 4), ("rs_tim", 3)] →
      ∀ x ∈ listed cfg.sets.carbon p m, 0 ≤ x := by
    intro p m hp x hx
    obtain ⟨i, hi, rfl⟩ := List.mem_map.1 hx
    obtain ⟨y, hy, hy0⟩ := hv p m hp i (List.mem_range.1 hi)
    rw [hy]
    exact hy0
  obtain ⟨iff, -⟩ := C86_accepted_iff hl hk hnew (by
    rintro key (rfl | rfl) v hv
    · rw [g2, Option.some.injEq] at hv; exact ⟨_, _, hv.symm⟩
    · rw [g1, Option.some.injEq] at hv; exact ⟨_, _, hv.symm⟩)
  obtain ⟨k', hk'⟩ := iff.2 ⟨fun v hv => by
      rw [g2, Option.some.injEq] at hv
      exact ⟨_, _, hv.symm, by simp [listed], hnn _ _ (by simp), hnn _ _ (by simp)⟩, fun v hv => by
      rw [g1, Option.some.injEq] at hv
      exact ⟨_, _, hv.symm, by simp [listed], hnn _ _ (by simp), hnn _ _ (by simp)⟩⟩
  have life := Life.reset _ hl hk'
  refine ⟨k', hk', ?_, ?_⟩
  · exact ((C86_land life).1 _ _ ⟨ps, _, [], rfl, ⟨_, new, rfl, hnew, g1⟩, by simp⟩).2
  · exact ((C86_ocean life).1 _ _ ⟨ps, _, [], rfl, ⟨_, new, rfl, hnew, g2⟩, by simp⟩).2

/-- C87: with the Gaussian method this is false: the default distribution then also draws negative response coefficients, and
a carbon cycle model refuses such a configuration with `ValueError`. -/
theorem C87_gaussian_usable_false : ∃ z : ℕ → ℕ → ℝ, ∀ (n : ℕ) (f : Option String) (pre : String) (chunk : Option ℕ),
    chunk ≠ some 0 → ∃ d r w, construct none none none (some "gaussian") = .ok d ∧ make d n z f pre chunk = .ok (r, w) ∧
    ∀ cfg ∈ allConfigs r, ∀ {time : Dict (PyVal ℝ)} {ps : List (Option (Dict (PyVal ℝ)))} {k k1 : IR ℝ}, Life time ps k →
    irOps.reset k none = .ok k1 → irOps.reset k (some (asPams cfg.sets.carbon)) = .error .valueError := by
  refine ⟨fun _ _ => -10, fun n f pre chunk hc0 => ?_⟩
  obtain ⟨d, r, w, hd, h⟩ := C87_gaussian_default "gaussian" (by decide) n (fun _ _ => -10) f pre chunk hc0
  refine ⟨d, r, w, hd, h, fun cfg hc time ps k k1 hl hk => ?_⟩
  have hw : Dict.WF (priorFlat : Dict (List ℝ)) := by
    simp only [Dict.WF, Dict.keys, priorFlat, List.map_cons, List.map_nil]
    decide
  obtain ⟨-, col, -, hval⟩ := C87_gaussian priorFlat hw setValuesDefault false "gaussian" (by decide) d hd n _ f pre chunk
    r w h
  obtain ⟨i0, hi0⟩ := List.mem_iff_getElem?.1 hc
  have hv : ∀ p m, (p, m) ∈ [("rb_coef", 3), ("rb_tim", 3), ("rs_coef", 4), ("rs_tim", 3)] → ∀ i < m,
      ∃ x, get? cfg.sets.carbon (p ++ toString i) = some x := by
    intro p m hp i hi
    obtain ⟨a, b, c⟩ := response_positive p m hp i hi
    obtain ⟨lo, hi', -, -, mid, sd, -, -, hx⟩ := hval _ a
    exact ⟨_, (hx i0 cfg hi0 .carbon).1 b⟩
  have hneg : ∃ x, get? cfg.sets.carbon "rb_coef0" = some x ∧ x < 0 := by
    obtain ⟨a, b, -⟩ := response_positive "rb_coef" 3 (by simp) 0 (by norm_num)
    have e : "rb_coef" ++ toString 0 = "rb_coef0" := by decide
    rw [e] at a b
    obtain ⟨lo, hi', hg, -, mid, sd, e1, e2, hx⟩ := hval _ a
    refine ⟨_, (hx i0 cfg hi0 .carbon).1 b, ?_⟩
    have hp : get? (priorFlat : Dict (List ℝ)) "rb_coef0" = some [0.3, 0.7] := rfl
    rw [hp] at hg
    simp only [Option.some.injEq, List.cons.injEq, reduceCtorEq, and_false, and_true, or_false,
      false_and] at hg
    have h1 : mid - sd = 0.3 := by rw [← e1, ← hg.1]
    have h2 : mid + sd = 0.7 := by rw [← e2, ← hg.2]
    have : mid = 0.5 := by norm_num at h1 h2 ⊢; linarith
    have : sd = 0.2 := by norm_num at h1 h2 ⊢; linarith
    subst mid sd
    norm_num
  have hsets : ∃ row, cfg.sets = sampleSets (init false (keys (priorFlat : Dict (List ℝ))) setValuesDefault) row := by
    obtain ⟨e1, e2, -⟩ := distribution_made (distro := priorFlat) (sv := setValuesDefault) (forc := false)
      (m := some "gaussian") hd
    unfold make at h
    rw [if_neg (by rw [e2]; decide)] at h
    unfold gaussian at h
    split at h
    · rw [bind_error] at h; cases h
    · rw [bind_ok] at h
      exact ⟨_, by rw [(configs_rows h).2 i0 cfg hi0, e1]⟩
  obtain ⟨row, hsets⟩ := hsets
  obtain ⟨hwc, hmem⟩ := default_carbon hsets
  obtain ⟨new, hnew, g1, g2⟩ := processFlat_listed hwc fun p m hp =>
    ⟨fun i hi => hv p m hp i hi, fun key hkey hf => flat_names p m hp key (hmem key hkey) hf⟩
  obtain ⟨iff, or⟩ := C86_accepted_iff hl hk hnew (by
    rintro key (rfl | rfl) v hv
    · rw [g2, Option.some.injEq] at hv; exact ⟨_, _, hv.symm⟩
    · rw [g1, Option.some.injEq] at hv; exact ⟨_, _, hv.symm⟩)
  refine or.resolve_left fun hok => ?_
  obtain ⟨c, t, e, -, hc0, -⟩ := (iff.1 hok).2 _ g1
  rw [PyVal.rfun.injEq] at e
  obtain ⟨x, hx, hx0⟩ := hneg
  have : x ∈ c := by
    rw [← e.1, listed]
    refine List.mem_map.2 ⟨0, by simp, ?_⟩
    rw [show "rb_coef" ++ toString 0 = "rb_coef0" by decide, hx]
    rfl
  exact absurd (hc0 x this) (not_le.2 hx0)

/-! ## The hypotheses are met -/

/-- Two configurations of the default distribution, in chunks of one, and a carbon cycle model that accepts both. -/
example : ∃ d r w, construct none none none none = .ok d ∧ make d 2 twoDraws none "" (some 1) = .ok (r, w) ∧
    (allConfigs r).length = 2 ∧ ∃ k : IR ℝ, ∀ cfg ∈ allConfigs r,
      ∃ k', irOps.reset k (some (asPams cfg.sets.carbon)) = .ok k' := by
  obtain ⟨d, r, w, hd, h⟩ := C87_default 2 (by norm_num) twoDraws none "" (some 1) (by simp)
  have hw : Dict.WF (priorFlat : Dict (List ℝ)) := by
    simp only [Dict.WF, Dict.keys, priorFlat, List.map_cons, List.map_nil]
    decide
  obtain ⟨k, k1, hl, hk⟩ := made_plain
  refine ⟨d, r, w, hd, h, (C87_latin priorFlat hw setValuesDefault false none (.inl rfl) d hd 2 twoDraws none "" (some 1) r w
    h).1, k, fun cfg hc => ?_⟩
  obtain ⟨k', hk', -⟩ := C87_usable 2 twoDraws (fun i j => by unfold twoDraws; split <;> norm_num) none "" (some 1) d r w hd h
    cfg hc hl hk
  exact ⟨k', hk'⟩

end Verif.Props
