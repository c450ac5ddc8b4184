import Verif.Model.ConfigDistro
import Verif.Lemmas.Dict
import Verif.Lemmas.Strings
import Verif.Spec.Routing
import Verif.Props.C42_C43

/-!
# C44, C45: sampled configuration lists
-/

namespace Verif.Props
open Verif.Py Verif.Model.ConfigDistro Verif.Spec

variable {V : Type}

/-! ## C44: chunking -/

/-- The configurations of a list of samples. -/
def configsOf (d : Distro V) (pre : String) (samples : List (ℕ → V)) : List (Config V) :=
  samples.zipIdx.map fun p => ⟨sampleSets d p.1, pre ++ toString p.2⟩

theorem makeSingle_ok (d : Distro V) (samples : List (ℕ → V)) {n : ℕ} (hn : samples.length = n)
    (f : Option String) (pre : String) :
    makeSingle d samples n f pre =
      .ok (configsOf d pre samples, f.toList.map (⟨·, configsOf d pre samples⟩)) := by
  have : (List.range n).mapM (sampleConfig d samples pre) = .ok (configsOf d pre samples) := by
    rw [mapM_ok]
    unfold configsOf
    apply List.ext_getElem
    · simp [hn]
    · intro i h1 h2
      simp only [List.length_map, List.length_range] at h1
      simp only [List.getElem_map, List.getElem_range, List.getElem_zipIdx, Nat.zero_add]
      unfold sampleConfig
      rw [List.getElem?_eq_getElem (by omega)]
  unfold makeSingle
  rw [this, bind_ok]
  rfl

theorem configsOf_sets (d : Distro V) (pre : String) (samples : List (ℕ → V)) :
    (configsOf d pre samples).map Config.sets = samples.map (sampleSets d) := by
  unfold configsOf
  rw [List.map_map]
  apply List.ext_getElem <;> simp

theorem configsOf_index (d : Distro V) (pre : String) (samples : List (ℕ → V)) :
    (configsOf d pre samples).map Config.index =
      (List.range samples.length).map fun i => pre ++ toString i := by
  unfold configsOf
  rw [List.map_map]
  apply List.ext_getElem <;> simp

theorem append_toString_inj {pre : String} {i j : ℕ} (h : pre ++ toString i = pre ++ toString j) :
    i = j := by
  have := congrArg String.toList h
  rw [String.toList_append, String.toList_append, toList_toString_nat, toList_toString_nat] at this
  exact toDigits_inj (List.append_cancel_left this)

theorem chunk_index_inj {pre : String} {c c' i i' : ℕ}
    (h : pre ++ "_" ++ toString c ++ "_" ++ toString i
      = pre ++ "_" ++ toString c' ++ "_" ++ toString i') : c = c' ∧ i = i' := by
  have := congrArg String.toList h
  simp only [String.toList_append, toList_toString_nat, List.append_assoc] at this
  have := List.append_cancel_left (List.append_cancel_left this)
  obtain ⟨h1, h2⟩ := append_sep_inj (not_mem_toDigits (by decide) _)
    (not_mem_toDigits (by decide) _) this
  exact ⟨toDigits_inj h1, toDigits_inj h2⟩

theorem nodup_flatMap_of {α β : Type} {l : List α} {f : α → List β} (hl : l.Nodup)
    (h1 : ∀ a ∈ l, (f a).Nodup) (h2 : ∀ a ∈ l, ∀ b ∈ l, ∀ x, x ∈ f a → x ∈ f b → a = b) :
    (l.flatMap f).Nodup := by
  induction l with
  | nil => simp
  | cons a l ih =>
    rw [List.flatMap_cons, List.nodup_append]
    rw [List.nodup_cons] at hl
    refine ⟨h1 a (by simp), ih hl.2 (fun b hb => h1 b (by simp [hb]))
      (fun b hb c hc => h2 b (by simp [hb]) c (by simp [hc])), ?_⟩
    rintro x hx y hy rfl
    obtain ⟨b, hb, hxb⟩ := List.mem_flatMap.1 hy
    have := h2 a (by simp) b (by simp [hb]) x hx hxb
    exact hl.1 (this ▸ hb)

/-- All configurations of a result, in order. -/
def allConfigs : Lists V → List (Config V)
  | .single cfgs => cfgs
  | .chunks cfgs => cfgs.flatten

theorem makeChunk_ok (d : Distro V) (samples : List (ℕ → V)) (m : ℕ) (f : Option String)
    (pre : String) (c : ℕ) :
    makeChunk d samples samples.length m f pre c =
      .ok (configsOf d (pre ++ "_" ++ toString c ++ "_") ((samples.drop (c * m)).take m),
        (f.map (chunkFname · c)).toList.map
          (⟨·, configsOf d (pre ++ "_" ++ toString c ++ "_") ((samples.drop (c * m)).take m)⟩)) := by
  unfold makeChunk
  have h : (samples.drop (c * m)).take (min m (samples.length - c * m))
      = (samples.drop (c * m)).take m := by
    apply List.ext_getElem?
    intro i
    rw [List.getElem?_take, List.getElem?_take, List.getElem?_drop]
    by_cases hi : i < m
    · by_cases hj : i < min m (samples.length - c * m)
      · rw [if_pos hi, if_pos hj]
      · rw [if_neg hj, if_pos hi, List.getElem?_eq_none]; omega
    · rw [if_neg hi, if_neg (by omega)]
  simp only
  rw [h, makeSingle_ok]
  simp

/-- The chunked result, spelled out. -/
theorem makeConfigLists_chunks (d : Distro V) (samples : List (ℕ → V)) {m : ℕ} (hm : 0 < m)
    (hle : m ≤ samples.length) (f : Option String) (pre : String) :
    makeConfigLists d samples samples.length f pre (some m) =
      .ok (.chunks ((List.range ((samples.length + m - 1) / m)).map fun c =>
          configsOf d (pre ++ "_" ++ toString c ++ "_") ((samples.drop (c * m)).take m)),
        (List.range ((samples.length + m - 1) / m)).flatMap fun c =>
          (f.map (chunkFname · c)).toList.map
            (⟨·, configsOf d (pre ++ "_" ++ toString c ++ "_") ((samples.drop (c * m)).take m)⟩)) := by
  unfold makeConfigLists
  simp only
  rw [if_neg (by omega), if_neg (by omega)]
  have : (List.range ((samples.length + m - 1) / m)).mapM
      (makeChunk d samples samples.length m f pre) = .ok
        ((List.range ((samples.length + m - 1) / m)).map fun c =>
          (configsOf d (pre ++ "_" ++ toString c ++ "_") ((samples.drop (c * m)).take m),
           (f.map (chunkFname · c)).toList.map
          (⟨·, configsOf d (pre ++ "_" ++ toString c ++ "_") ((samples.drop (c * m)).take m)⟩))) := by
    rw [mapM_ok, List.map_map]
    apply List.map_congr_left
    intro c _
    exact makeChunk_ok d samples m f pre c
  rw [this, bind_ok, List.map_map, List.flatMap_map]
  rfl

/-- C44: `n` samples always give `n` configurations: configuration number `i` (counted through the
chunks) is built from sample number `i`, nothing is lost, repeated or reordered. -/
theorem C44_partition (d : Distro V) (samples : List (ℕ → V)) (f : Option String) (pre : String)
    (chunk : Option ℕ) (hc : chunk ≠ some 0) :
    ∃ r w, makeConfigLists d samples samples.length f pre chunk = .ok (r, w) ∧
      (allConfigs r).map Config.sets = samples.map (sampleSets d) := by
  have hsingle : ∃ r w, (do
        let r ← makeSingle d samples samples.length f pre
        return (Lists.single r.1, r.2) : Except PyErr (Lists V × List (Written V))) = .ok (r, w) ∧
      (allConfigs r).map Config.sets = samples.map (sampleSets d) := by
    rw [makeSingle_ok d samples rfl, bind_ok]
    exact ⟨_, _, rfl, configsOf_sets _ _ _⟩
  cases chunk with
  | none => exact hsingle
  | some m =>
    by_cases h : samples.length < m
    · unfold makeConfigLists
      simp only
      rw [if_pos h]
      exact hsingle
    · have hm : 0 < m := Nat.pos_of_ne_zero fun e => hc (by rw [e])
      rw [makeConfigLists_chunks d samples hm (by omega)]
      refine ⟨_, _, rfl, ?_⟩
      unfold allConfigs
      rw [List.map_flatten, List.map_map]
      have : (List.map Config.sets ∘ fun c =>
          configsOf d (pre ++ "_" ++ toString c ++ "_") ((samples.drop (c * m)).take m))
          = List.map (sampleSets d) ∘ fun c => (samples.drop (c * m)).take m := by
        funext c
        exact configsOf_sets _ _ _
      rw [this, ← List.map_map, ← List.map_flatten]
      exact congrArg _ (batches_flatten hm samples)

/-- C44: when the samples are split, no chunk is empty and none exceeds the requested size. -/
theorem C44_chunk_size (d : Distro V) (samples : List (ℕ → V)) (f : Option String) (pre : String)
    (m : ℕ) (hm : 0 < m) (cs : List (List (Config V))) (w : List (Written V))
    (h : makeConfigLists d samples samples.length f pre (some m) = .ok (.chunks cs, w)) :
    ∀ c ∈ cs, c ≠ [] ∧ c.length ≤ m := by
  by_cases hle : m ≤ samples.length
  · rw [makeConfigLists_chunks d samples hm hle] at h
    simp only [Except.ok.injEq, Prod.mk.injEq, Lists.chunks.injEq] at h
    rw [← h.1]
    intro c hc
    obtain ⟨j, hj, rfl⟩ := List.mem_map.1 hc
    have := batches_bound hm samples ((samples.drop (j * m)).take m)
      (List.mem_map.2 ⟨j, hj, rfl⟩)
    constructor
    · intro e
      apply this.1
      have h2 := congrArg List.length e
      rw [← List.length_eq_zero_iff]
      simpa [configsOf] using h2
    · simpa [configsOf] using this.2
  · unfold makeConfigLists at h
    simp only at h
    rw [if_pos (by omega), makeSingle_ok d samples rfl, bind_ok] at h
    simp [pure_ok] at h

/-- C44: a list is only returned unsplit when no size was asked for or everything fits. -/
theorem C44_unsplit (d : Distro V) (samples : List (ℕ → V)) (f : Option String) (pre : String)
    (chunk : Option ℕ) (cs : List (Config V)) (w : List (Written V))
    (h : makeConfigLists d samples samples.length f pre chunk = .ok (.single cs, w)) (m : ℕ)
    (hm : chunk = some m) : cs.length < m := by
  subst hm
  unfold makeConfigLists at h
  simp only at h
  by_cases h1 : samples.length < m
  · rw [if_pos h1, makeSingle_ok d samples rfl, bind_ok, pure_ok] at h
    simp only [Except.ok.injEq, Prod.mk.injEq, Lists.single.injEq] at h
    rw [← h.1]
    simpa [configsOf] using h1
  · rw [if_neg h1] at h
    by_cases h0 : m = 0
    · rw [if_pos h0] at h; cases h
    · rw [if_neg h0, bind_eq_ok] at h
      obtain ⟨rs, _, h⟩ := h
      simp [pure_ok] at h

/-- C44: all configurations have different indices, whatever the prefix. -/
theorem C44_unique_index (d : Distro V) (samples : List (ℕ → V)) (f : Option String) (pre : String)
    (chunk : Option ℕ) (r : Lists V) (w : List (Written V))
    (h : makeConfigLists d samples samples.length f pre chunk = .ok (r, w)) :
    ((allConfigs r).map Config.index).Nodup := by
  have single : ∀ pre, ((configsOf d pre samples).map Config.index).Nodup := by
    intro pre
    rw [configsOf_index]
    exact List.Nodup.map (fun i j e => append_toString_inj e) List.nodup_range
  have hs : ∀ r w, (do
        let r ← makeSingle d samples samples.length f pre
        return (Lists.single r.1, r.2) : Except PyErr (Lists V × List (Written V))) = .ok (r, w) →
      ((allConfigs r).map Config.index).Nodup := by
    intro r w h
    rw [makeSingle_ok d samples rfl, bind_ok, pure_ok] at h
    simp only [Except.ok.injEq, Prod.mk.injEq] at h
    rw [← h.1]
    exact single pre
  cases chunk with
  | none => exact hs r w h
  | some m =>
    by_cases h1 : samples.length < m
    · unfold makeConfigLists at h
      simp only at h
      rw [if_pos h1] at h
      exact hs r w h
    · by_cases h0 : m = 0
      · unfold makeConfigLists at h
        simp only at h
        rw [if_neg h1, if_pos h0] at h; cases h
      · rw [makeConfigLists_chunks d samples (by omega) (by omega)] at h
        simp only [Except.ok.injEq, Prod.mk.injEq] at h
        rw [← h.1]
        unfold allConfigs
        rw [List.map_flatten, List.map_map]
        rw [← List.flatMap_def]
        apply nodup_flatMap_of List.nodup_range
        · intro c _
          simp only [Function.comp]
          rw [configsOf_index]
          exact List.Nodup.map (fun i j e => append_toString_inj e) List.nodup_range
        · intro c _ c' _ x hx hx'
          simp only [Function.comp] at hx hx'
          rw [configsOf_index, List.mem_map] at hx hx'
          obtain ⟨i, _, rfl⟩ := hx
          obtain ⟨i', _, e⟩ := hx'
          exact (chunk_index_inj e).1.symm

/-- Five samples in chunks of two: three chunks. -/
example : ∃ cs w, makeConfigLists (init false ["qbc", "W"] ([] : Dict ℕ))
    (List.replicate 5 id) 5 none "run" (some 2) = .ok (.chunks cs, w) ∧ cs.length = 3 :=
  ⟨_, _, makeConfigLists_chunks (init false ["qbc", "W"] ([] : Dict ℕ)) (List.replicate 5 id)
    (m := 2) (by omega) (by simp) none "run", by simp⟩

/-! ### Files of chunks -/

theorem replaceGo_skip (pat rep : List Char) (l : List Char) (k : ℕ) :
    replaceGo pat rep k l = replaceGo pat rep 0 (l.drop k) := by
  induction l generalizing k with
  | nil => cases k <;> rfl
  | cons c l ih =>
    cases k with
    | zero => rfl
    | succ k => rw [replaceGo, ih]; rfl

/-- The part of `l` before the first occurrence of `pat` is kept and is followed by `rep`. -/
theorem replaceGo_first (pat : List Char) {l : List Char} (h : pat <:+: l) (hp : pat ≠ []) :
    ∃ before, ∀ rep, ∃ after, replaceGo pat rep 0 l = before ++ rep ++ after := by
  induction l with
  | nil =>
    exact absurd (List.eq_nil_of_infix_nil h) hp
  | cons c l ih =>
    by_cases hpre : pat.isPrefixOf (c :: l)
    · refine ⟨[], fun rep => ⟨replaceGo pat rep (pat.length - 1) l, ?_⟩⟩
      rw [replaceGo, if_pos hpre]
      rfl
    · have : pat <:+: l := by
        rcases List.infix_cons_iff.1 h with h' | h'
        · exact absurd (List.isPrefixOf_iff_prefix.2 h') hpre
        · exact h'
      obtain ⟨b, hb⟩ := ih this
      refine ⟨c :: b, fun rep => ?_⟩
      obtain ⟨a, ha⟩ := hb rep
      exact ⟨a, by rw [replaceGo, if_neg hpre, ha]; rfl⟩

/-- C58: if the file name contains ".json", the files of different chunks have different names, so
no chunk overwrites another. -/
theorem C58_chunk_files_distinct_partial (fname : String) (h : ".json".toList <:+: fname.toList)
    {c c' : ℕ} (he : chunkFname fname c = chunkFname fname c') : c = c' := by
  unfold chunkFname at he
  have he := String.ofList_injective he
  obtain ⟨b, hb⟩ := replaceGo_first ".json".toList h (by decide)
  obtain ⟨a1, h1⟩ := hb ("chunk_" ++ toString c ++ ".json").toList
  obtain ⟨a2, h2⟩ := hb ("chunk_" ++ toString c' ++ ".json").toList
  rw [h1, h2] at he
  simp only [String.toList_append, toList_toString_nat, List.append_assoc] at he
  have he := List.append_cancel_left (List.append_cancel_left he)
  obtain ⟨e, _⟩ := append_sep_inj (not_mem_toDigits (by decide) _)
    (not_mem_toDigits (by decide) _) he
  exact toDigits_inj e

theorem replaceGo_absent (pat rep : List Char) {l : List Char} (h : ¬ pat <:+: l) :
    replaceGo pat rep 0 l = l := by
  induction l with
  | nil => rfl
  | cons c l ih =>
    have h1 : ¬ pat.isPrefixOf (c :: l) = true := fun e =>
      h (List.isPrefixOf_iff_prefix.1 e).isInfix
    rw [replaceGo, if_neg h1, ih fun e => h (List.infix_cons_iff.2 (.inr e))]

/-- C58 fails in general: without ".json" in the name every chunk is written to the same file, so
only the last chunk survives. -/
theorem C58_chunk_files_false (fname : String) (h : ¬ ".json".toList <:+: fname.toList) (c : ℕ) :
    chunkFname fname c = fname := by
  unfold chunkFname
  rw [replaceGo_absent _ _ h, String.ofList_toList]

example : ¬ ".json".toList <:+: "cfgs.txt".toList ∧ ".json".toList <:+: "dir/cfgs.json".toList := by
  decide +kernel

/-- C58: each file holds exactly the configurations of its chunk. -/
theorem C58_file_contents (d : Distro V) (samples : List (ℕ → V)) (fname pre : String)
    (m : ℕ) (hm : 0 < m) (hle : m ≤ samples.length) (cs : List (List (Config V)))
    (w : List (Written V))
    (h : makeConfigLists d samples samples.length (some fname) pre (some m)
      = .ok (.chunks cs, w)) :
    w.map Written.configs = cs ∧
      w.map Written.name = (List.range cs.length).map (chunkFname fname) := by
  rw [makeConfigLists_chunks d samples hm hle] at h
  simp only [Except.ok.injEq, Prod.mk.injEq, Lists.chunks.injEq] at h
  obtain ⟨rfl, rfl⟩ := h
  simp only [Option.map_some, Option.toList_some, List.map_cons, List.map_nil, List.length_map,
    List.length_range]
  have : ∀ {α β : Type} (l : List α) (g : α → β), (l.flatMap fun c => [g c]) = l.map g := by
    intro α β l g
    induction l with
    | nil => rfl
    | cons a l ih => rw [List.flatMap_cons, ih]; rfl
  rw [this, List.map_map, List.map_map]
  exact ⟨rfl, rfl⟩

/-! ## C45: routing -/

/-- The set of a component. -/
def setOf (s : Sets V) : Component → Dict V
  | .thermal => s.udm
  | .carbon => s.carbon
  | .emiconc => s.emiconc

theorem startsRbRs_iff (pam : String) : startsRbRs pam = true ↔ IsResponseName pam := by
  unfold startsRbRs IsResponseName
  rw [Bool.or_eq_true, List.isPrefixOf_iff_prefix, List.isPrefixOf_iff_prefix]
  constructor
  · rintro (⟨t, ht⟩ | ⟨t, ht⟩)
    · refine ⟨String.ofList t, .inl ?_⟩
      rw [← String.toList_inj, String.toList_append, ← ht]
      simp [String.toList_ofList]
    · refine ⟨String.ofList t, .inr ?_⟩
      rw [← String.toList_inj, String.toList_append, ← ht]
      simp [String.toList_ofList]
  · rintro ⟨r, h | h⟩
    · left; rw [h, String.toList_append]; exact ⟨_, rfl⟩
    · right; rw [h, String.toList_append]; exact ⟨_, rfl⟩

/-- Where a sampled parameter is put. -/
def homeOf (pam : String) : Component :=
  if orderingStandardForc.contains pam then .thermal
  else if carbonRequired.contains pam || startsRbRs pam then .carbon
  else .emiconc

theorem homeOf_iff (pam : String) (c : Component) : homeOf pam = c ↔ IsHome pam c := by
  have ht : orderingStandardForc.contains pam = true ↔ pam ∈ thermalDocumented := by
    rw [List.contains_iff_mem]; rfl
  have hc : carbonRequired.contains pam = true ↔ pam ∈ carbonScalars := by
    rw [List.contains_iff_mem]; rfl
  have hr := startsRbRs_iff pam
  unfold homeOf
  constructor
  · rintro rfl
    split
    · next h => exact .thermal (ht.1 h)
    · next h =>
      split
      · next h2 =>
        refine .carbon (fun e => h (ht.2 e)) ?_
        rw [Bool.or_eq_true] at h2
        exact h2.imp hc.1 hr.1
      · next h2 =>
        rw [Bool.or_eq_true, not_or] at h2
        exact .emiconc (fun e => h (ht.2 e)) (fun e => h2.1 (hc.2 e)) (fun e => h2.2 (hr.2 e))
  · intro h
    cases h with
    | thermal h => rw [if_pos (ht.2 h)]
    | carbon h h2 =>
      rw [if_neg (fun e => h (ht.1 e)), if_pos]
      rw [Bool.or_eq_true]
      exact h2.imp hc.2 hr.2
    | emiconc h h2 h3 =>
      rw [if_neg (fun e => h (ht.1 e)), if_neg]
      rw [Bool.or_eq_true, not_or]
      exact ⟨fun e => h2 (hc.1 e), fun e => h3 (hr.1 e)⟩

theorem get?_sampleStep (forc : Bool) (row : ℕ → V) (s : Sets V) (p : String × ℕ)
    (hf : forc = true → p.1 ∈ thermalDocumented) (c : Component) (k : String) :
    Dict.get? (setOf (sampleStep forc row s p) c) k =
      if p.1 = k ∧ homeOf k = c then some (row p.2) else Dict.get? (setOf s c) k := by
  by_cases hk : p.1 = k
  · subst hk
    unfold sampleStep homeOf
    by_cases h1 : orderingStandardForc.contains p.1 = true
    · simp only [h1, if_true]
      cases c <;> simp [setOf, Dict.get?_set]
    · have hff : forc = false := by
        cases forc with
        | false => rfl
        | true => exact absurd (List.contains_iff_mem.2 (hf rfl)) h1
      subst hff
      by_cases h2 : carbonRequired.contains p.1 = true
      · simp only [h1, h2, Bool.not_false, Bool.true_and, if_true, Bool.true_or]
        cases c <;> simp [setOf, Dict.get?_set]
      · by_cases h3 : startsRbRs p.1 = true
        · simp only [h1, h2, h3, Bool.not_false, Bool.true_and, if_true, Bool.or_true]
          cases c <;> simp [setOf, Dict.get?_set]
        · simp only [h1, h2, h3, Bool.not_false, Bool.true_and, if_true, Bool.or_false]
          cases c <;> simp [setOf, Dict.get?_set]
  · have : ∀ c, Dict.get? (setOf (sampleStep forc row s p) c) k = Dict.get? (setOf s c) k := by
      intro c
      unfold sampleStep
      split
      · cases c <;> simp [setOf, Dict.get?_set, hk]
      · split
        · cases c <;> simp [setOf, Dict.get?_set, hk]
        · split
          · cases c <;> simp [setOf, Dict.get?_set, hk]
          · split
            · cases c <;> simp [setOf, Dict.get?_set, hk]
            · rfl
    rw [if_neg (fun e => hk e.1)]
    exact this c

theorem get?_startStep (s : Sets V) (p : String × V) (c : Component) (k : String)
    (hk : ¬ IsResponseName k) :
    Dict.get? (setOf (startStep s p) c) k =
      if p.1 = k ∧ homeOf k = c then some p.2 else Dict.get? (setOf s c) k := by
  by_cases h : p.1 = k
  · subst h
    unfold startStep
    have h3 : startsRbRs p.1 = false := by
      rw [Bool.eq_false_iff]; exact fun e => hk ((startsRbRs_iff _).1 e)
    unfold homeOf
    by_cases h1 : orderingStandardForc.contains p.1 = true
    · simp only [h1, if_true]
      cases c <;> simp [setOf, Dict.get?_set]
    · by_cases h2 : carbonRequired.contains p.1 = true
      · simp only [h1, h2, Bool.true_or, if_true]
        cases c <;> simp [setOf, Dict.get?_set]
      · simp only [h1, h2, h3, Bool.or_false]
        cases c <;> simp [setOf, Dict.get?_set]
  · rw [if_neg (fun e => h e.1)]
    unfold startStep
    split
    · cases c <;> simp [setOf, Dict.get?_set, h]
    · split
      · cases c <;> simp [setOf, Dict.get?_set, h]
      · cases c <;> simp [setOf, Dict.get?_set, h]

theorem get?_pamsetsStart {setvalues : Dict V} (hw : Dict.WF setvalues) (c : Component) (k : String)
    (hk : ¬ IsResponseName k) :
    Dict.get? (setOf (pamsetsStart setvalues) c) k =
      if homeOf k = c then Dict.get? setvalues k else none := by
  have key : ∀ (l : Dict V) (s : Sets V), Dict.WF l →
      Dict.get? (setOf (l.foldl startStep s) c) k =
        if homeOf k = c then (Dict.get? l k).or (Dict.get? (setOf s c) k)
        else Dict.get? (setOf s c) k := by
    intro l
    induction l with
    | nil => intro s _; simp [Dict.get?]
    | cons p l ih =>
      intro s hl
      obtain ⟨k', v⟩ := p
      rw [Dict.WF_cons] at hl
      rw [List.foldl_cons, ih _ hl.2, get?_startStep _ _ _ _ hk]
      by_cases hh : homeOf k = c
      · by_cases e : k' = k
        · subst e
          have : Dict.get? l k' = none := (Dict.get?_eq_none_iff _ _).2 hl.1
          simp [hh, Dict.get?_cons, this]
        · simp [hh, e, Dict.get?_cons]
      · simp [hh]
  unfold pamsetsStart
  rw [key _ _ hw]
  have : Dict.get? (setOf (⟨[], [], []⟩ : Sets V) c) k = none := by cases c <;> rfl
  rw [this]
  simp

/-- A parameter that is not fixed is in none of the starting sets. -/
theorem pamsetsStart_absent {setvalues : Dict V} (c : Component) (k : String)
    (hk : k ∉ Dict.keys setvalues) : Dict.get? (setOf (pamsetsStart setvalues) c) k = none := by
  have key : ∀ (l : Dict V) (s : Sets V), k ∉ Dict.keys l →
      Dict.get? (setOf (l.foldl startStep s) c) k = Dict.get? (setOf s c) k := by
    intro l
    induction l with
    | nil => intro s _; rfl
    | cons p l ih =>
      intro s h
      have hp : p.1 ≠ k := fun e => h (by simp [Dict.keys, e])
      rw [List.foldl_cons, ih _ (fun e => h (by simp [Dict.keys] at e ⊢; exact .inr e))]
      unfold startStep
      split
      · cases c <;> simp [setOf, Dict.get?_set, hp]
      · split
        · cases c <;> simp [setOf, Dict.get?_set, hp]
        · cases c <;> simp [setOf, Dict.get?_set, hp]
  unfold pamsetsStart
  rw [key _ _ hk]
  cases c <;> rfl

theorem sample_fold_absent (forc : Bool) (row : ℕ → V) (l : List (String × ℕ)) (s : Sets V)
    (hf : forc = true → ∀ p ∈ l, p.1 ∈ thermalDocumented)
    (c : Component) (k : String) (hk : ∀ p ∈ l, p.1 ≠ k) :
    Dict.get? (setOf (l.foldl (sampleStep forc row) s) c) k = Dict.get? (setOf s c) k := by
  induction l generalizing s with
  | nil => rfl
  | cons p l ih =>
    rw [List.foldl_cons, ih _ (fun e q hq => hf e q (by simp [hq])) (fun q hq => hk q (by simp [hq])),
      get?_sampleStep _ _ _ _ (fun e => hf e p (by simp)), if_neg (fun e => hk p (by simp) e.1)]

theorem sample_fold_hit (forc : Bool) (row : ℕ → V) (l : List (String × ℕ)) (s : Sets V)
    (hf : forc = true → ∀ p ∈ l, p.1 ∈ thermalDocumented) (hn : (l.map Prod.fst).Nodup)
    (c : Component) (k : String) (j : ℕ) (hk : (k, j) ∈ l) :
    Dict.get? (setOf (l.foldl (sampleStep forc row) s) c) k =
      if homeOf k = c then some (row j) else Dict.get? (setOf s c) k := by
  induction l generalizing s with
  | nil => cases hk
  | cons p l ih =>
    rw [List.map_cons, List.nodup_cons] at hn
    rw [List.foldl_cons]
    rcases List.mem_cons.1 hk with rfl | hk
    · rw [sample_fold_absent _ _ _ _ (fun e q hq => hf e q (by simp [hq])) c k, get?_sampleStep _ _ _ _
        (fun e => hf e _ (by simp))]
      · simp
      · intro q hq e
        exact hn.1 (e ▸ List.mem_map.2 ⟨q, hq, rfl⟩)
    · rw [ih _ (fun e q hq => hf e q (by simp [hq])) hn.2 hk, get?_sampleStep _ _ _ _
        (fun e => hf e _ (by simp))]
      have : p.1 ≠ k := fun e => hn.1 (e ▸ List.mem_map.2 ⟨(k, j), hk, rfl⟩)
      simp [this]

theorem mem_ordering {forc : Bool} {ks : List String} {sv : Dict V} {k : String} :
    k ∈ ordering forc ks sv ↔
      k ∈ ks ∧ k ∉ Dict.keys sv ∧ (forc = true → k ∈ thermalDocumented) := by
  have hh : (!Dict.has sv k) = true ↔ k ∉ Dict.keys sv := by
    rw [← Dict.has_iff]; simp
  unfold ordering
  cases forc with
  | false =>
    simp only [Bool.false_eq_true, if_false, List.mem_filter, List.mem_mergeSort, hh]
    simp
  | true =>
    simp only [if_true, List.mem_filter, List.mem_mergeSort, Bool.and_eq_true, hh,
      List.contains_iff_mem]
    constructor
    · rintro ⟨a, b, c⟩; exact ⟨a, c, fun _ => b⟩
    · rintro ⟨a, b, c⟩; exact ⟨a, c trivial, b⟩

theorem nodup_ordering {forc : Bool} {ks : List String} {sv : Dict V} (h : ks.Nodup) :
    (ordering forc ks sv).Nodup := by
  have : (ks.mergeSort (fun a b => decide (a ≤ b))).Nodup :=
    (List.mergeSort_perm ks _).nodup_iff.2 h
  unfold ordering
  split
  · exact this.filter _
  · exact this.filter _

theorem zipIdx_fst {α : Type} (l : List α) : l.zipIdx.map Prod.fst = l := by
  apply List.ext_getElem <;> simp

/-- C45: the parameters sampled are exactly the parameters of the distribution that have no fixed
value (and, for forcing runs, that the thermal model knows). -/
theorem C45_sampled_names (forc : Bool) (ks : List String) (sv : Dict V) (k : String) :
    k ∈ (init forc ks sv).ordering ↔
      k ∈ ks ∧ k ∉ Dict.keys sv ∧ (forc = true → k ∈ thermalDocumented) := mem_ordering

/-- C45: a sampled parameter is found, with the sampled value, in the set it belongs to, and in no
other set. -/
theorem C45_sampled (forc : Bool) (ks : List String) (hks : ks.Nodup) (sv : Dict V) (row : ℕ → V)
    (j : ℕ) (k : String) (hj : (init forc ks sv).ordering[j]? = some k) (c : Component) :
    (IsHome k c → Dict.get? (setOf (sampleSets (init forc ks sv) row) c) k = some (row j)) ∧
    (¬ IsHome k c → Dict.get? (setOf (sampleSets (init forc ks sv) row) c) k = none) := by
  have hm := List.mem_of_getElem? hj
  have hmo := mem_ordering.1 hm
  have hz : (k, j) ∈ (init forc ks sv).ordering.zipIdx := by
    rw [List.mk_mem_zipIdx_iff_getElem?]; exact hj
  have := sample_fold_hit forc row (init forc ks sv).ordering.zipIdx (pamsetsStart sv)
    (fun e p hp => (mem_ordering.1 (List.fst_mem_of_mem_zipIdx hp)).2.2 e)
    (by rw [zipIdx_fst]; exact nodup_ordering hks) c k j hz
  have hs : sampleSets (init forc ks sv) row =
      List.foldl (sampleStep forc row) (pamsetsStart sv) (init forc ks sv).ordering.zipIdx := rfl
  rw [hs, this, ← homeOf_iff]
  constructor
  · intro h; rw [if_pos h]
  · intro h; rw [if_neg h]; exact pamsetsStart_absent c k hmo.2.1

/-- C45 (partial): a fixed parameter is found, with its fixed value (never a sampled one), in the set
it belongs to and in no other set, *unless it is an impulse-response parameter* (for those see
`C45_fixed_false`). -/
theorem C45_fixed_partial (forc : Bool) (ks : List String) (sv : Dict V) (hw : Dict.WF sv)
    (row : ℕ → V) (k : String) (v : V) (hv : Dict.get? sv k = some v) (hk : ¬ IsResponseName k)
    (c : Component) :
    (IsHome k c → Dict.get? (setOf (sampleSets (init forc ks sv) row) c) k = some v) ∧
    (¬ IsHome k c → Dict.get? (setOf (sampleSets (init forc ks sv) row) c) k = none) := by
  have hin : k ∈ Dict.keys sv := (Dict.get?_isSome_iff _ _).1 ⟨v, hv⟩
  have := sample_fold_absent forc row (init forc ks sv).ordering.zipIdx (pamsetsStart sv)
    (fun e p hp => (mem_ordering.1 (List.fst_mem_of_mem_zipIdx hp)).2.2 e) c k
    (fun p hp e => (mem_ordering.1 (List.fst_mem_of_mem_zipIdx hp)).2.1 (e ▸ hin))
  have hs : sampleSets (init forc ks sv) row =
      List.foldl (sampleStep forc row) (pamsetsStart sv) (init forc ks sv).ordering.zipIdx := rfl
  rw [hs, this, get?_pamsetsStart hw c k hk, ← homeOf_iff, hv]
  constructor
  · intro h; rw [if_pos h]
  · intro h; rw [if_neg h]

/-- C45: nothing else ends up in a configuration. -/
theorem C45_nothing_else (forc : Bool) (ks : List String) (sv : Dict V) (row : ℕ → V) (k : String)
    (h1 : k ∉ Dict.keys sv) (h2 : k ∉ (init forc ks sv).ordering) (c : Component) :
    Dict.get? (setOf (sampleSets (init forc ks sv) row) c) k = none := by
  have := sample_fold_absent forc row (init forc ks sv).ordering.zipIdx (pamsetsStart sv)
    (fun e p hp => (mem_ordering.1 (List.fst_mem_of_mem_zipIdx hp)).2.2 e) c k
    (fun p hp e => h2 (e ▸ List.fst_mem_of_mem_zipIdx hp))
  unfold sampleSets
  change Dict.get? (setOf (List.foldl (sampleStep forc row) (pamsetsStart sv) _) c) k = _
  rw [this]
  exact pamsetsStart_absent c k h1

/-- C45 fails for fixed impulse-response parameters: a fixed `rb_coef0` belongs to the carbon cycle,
but every configuration has it in the emission/concentration set instead. -/
theorem C45_fixed_false (forc : Bool) (ks : List String) (row : ℕ → V) (v : V) :
    IsHome "rb_coef0" .carbon ∧
    Dict.get? (setOf (sampleSets (init forc ks [("rb_coef0", v)]) row) .carbon) "rb_coef0" = none ∧
    Dict.get? (setOf (sampleSets (init forc ks [("rb_coef0", v)]) row) .emiconc) "rb_coef0"
      = some v := by
  refine ⟨.carbon (by decide) (.inr ⟨"coef0", .inl (by decide)⟩), ?_⟩
  have := fun c => sample_fold_absent forc row (init forc ks [("rb_coef0", v)]).ordering.zipIdx
    (pamsetsStart [("rb_coef0", v)])
    (fun e p hp => (mem_ordering.1 (List.fst_mem_of_mem_zipIdx hp)).2.2 e) c "rb_coef0"
    (fun p hp e => (mem_ordering.1 (List.fst_mem_of_mem_zipIdx hp)).2.1 (by simp [Dict.keys, e]))
  unfold sampleSets
  constructor
  · exact (this .carbon).trans (by
      simp [pamsetsStart, startStep, setOf, orderingStandardForc, carbonRequired, Dict.get?])
  · exact (this .emiconc).trans (by
      simp [pamsetsStart, startStep, setOf, orderingStandardForc, carbonRequired, Dict.get?,
        Dict.set])

/-- C45 fails for some thermal parameters: `foan` is read by the upwelling-diffusion model, but a
sampled `foan` is put in the emission/concentration set, whose owner does not read it, so it has no
effect. -/
theorem C45_foan_false (row : ℕ → V) :
    "foan" ∈ thermalRead ∧ "foan" ∉ handlerRead ∧
    Dict.get? (setOf (sampleSets (init false ["foan"] []) row) .thermal) "foan" = none ∧
    Dict.get? (setOf (sampleSets (init false ["foan"] []) row) .emiconc) "foan" = some (row 0) := by
  have ho : (init false ["foan"] ([] : Dict V)).ordering[0]? = some "foan" := by
    simp [init, ordering, Dict.has, Dict.get?]
  have hr : ¬ IsResponseName "foan" := by
    rw [← startsRbRs_iff]; decide
  have hh : IsHome "foan" .emiconc := .emiconc (by decide) (by decide) hr
  refine ⟨by decide, by decide, ?_, ?_⟩
  · exact (C45_sampled false ["foan"] (by simp) [] row 0 "foan" ho .thermal).2
      (fun h => by cases h with | thermal h => exact absurd h (by decide))
  · exact (C45_sampled false ["foan"] (by simp) [] row 0 "foan" ho .emiconc).1 hh

/-- C45: `npp0`, a parameter of the default prior, is sampled and put in the emission/concentration
set although no component reads it: sampling it has no effect. -/
theorem C45_npp0_unused (row : ℕ → V) :
    "npp0" ∉ thermalRead ∧ "npp0" ∉ carbonScalars ∧ ¬ IsResponseName "npp0" ∧
    "npp0" ∉ handlerRead ∧
    Dict.get? (setOf (sampleSets (init false ["npp0"] []) row) .emiconc) "npp0" = some (row 0) := by
  have ho : (init false ["npp0"] ([] : Dict V)).ordering[0]? = some "npp0" := by
    simp [init, ordering, Dict.has, Dict.get?]
  have hr : ¬ IsResponseName "npp0" := by
    rw [← startsRbRs_iff]; decide
  exact ⟨by decide, by decide, hr, by decide,
    (C45_sampled false ["npp0"] (by simp) [] row 0 "npp0" ho .emiconc).1
      (.emiconc (by decide) (by decide) hr)⟩

/-- A distribution over a thermal, a carbon, a response and a forcing parameter with one fixed value. -/
example (v : V) :
    "rs_tim0" ∈ (init false ["rs_tim0", "W", "qbc", "beta_f", "lm"] [("lm", v)]).ordering ∧
    "lm" ∉ (init false ["rs_tim0", "W", "qbc", "beta_f", "lm"] [("lm", v)]).ordering ∧
    IsHome "rs_tim0" .carbon ∧ IsHome "W" .thermal ∧ IsHome "qbc" .emiconc ∧
    IsHome "beta_f" .carbon := by
  refine ⟨?_, ?_, .carbon (by decide) (.inr ⟨"tim0", .inr (by decide)⟩), .thermal (by decide),
    .emiconc (by decide) (by decide) ?_, .carbon (by decide) (.inl (by decide))⟩
  · rw [C45_sampled_names]; simp [Dict.keys]
  · rw [C45_sampled_names]; simp [Dict.keys]
  · rw [← startsRbRs_iff]; decide

end Verif.Props
