import Verif.Model.FlatParams
import Verif.Lemmas.Dict
import Verif.Lemmas.Except
import Mathlib.Data.List.Basic
import Mathlib.Data.List.Pairwise

/-!
# C27: flat and structured impulse-response parameters mean the same
-/

namespace Verif.Props.FlatPams
open Verif.Py Verif.Model.Flat

variable {V : Type} {isNone : PVal V → Bool}

/-! ## specification -/

/-- The flat key with index `i`, e.g. `rb_coef0`. -/
def flatKey (pre : String) (i : ℕ) : String := pre ++ toString i

/-- A key the user would call flat for this prefix: the prefix followed by decimal digits. -/
def IsFlat (pre key : String) : Prop :=
  ∃ ds : List Char, key.toList = pre.toList ++ ds ∧ ds ≠ [] ∧ ∀ c ∈ ds, c.isDigit = true

/-- The dictionary gives the list `xs` in flat form with (strictly increasing, possibly gapped)
indices `is`, in any order and mixed with any other keys. -/
structure GivesFlat (isNone : PVal V → Bool) (d : Dict (PVal V)) (pre : String) (is : List ℕ)
    (xs : List (PVal V)) : Prop where
  len : is.length = xs.length
  inc : is.Pairwise (· < ·)
  get : ∀ j (h : j < is.length) (h' : j < xs.length), Dict.get? d (flatKey pre is[j]) = some xs[j]
  only : ∀ key ∈ Dict.keys d, IsFlat pre key → ∃ i ∈ is, key = flatKey pre i
  real : ∀ x ∈ xs, isNone x = false

/-- Any of the four flat prefixes. -/
def IsAnyFlat (key : String) : Prop :=
  IsFlat "rb_coef" key ∨ IsFlat "rb_tim" key ∨ IsFlat "rs_coef" key ∨ IsFlat "rs_tim" key

/-! ## keys and indices -/

theorem idxOf_eq_some {pre key : String} {i : ℕ} :
    idxOf pre key = some i ↔ ∃ ds : List Char, key.toList = pre.toList ++ ds ∧ ds ≠ [] ∧
      (∀ c ∈ ds, c.isDigit = true) ∧ Nat.ofDigitChars 10 ds 0 = i := by
  unfold idxOf
  simp only
  constructor
  · intro h
    split at h
    · next hc =>
      simp only [Bool.and_eq_true, List.isPrefixOf_iff_prefix, List.all_eq_true] at hc
      obtain ⟨⟨⟨ds, hds⟩, h2⟩, h3⟩ := hc
      rw [← hds, List.drop_left] at h2 h3 h
      refine ⟨ds, hds.symm, ?_, h3, by simpa using h⟩
      simpa using h2
    · simp at h
  · rintro ⟨ds, h1, h2, h3, h4⟩
    rw [h1, List.drop_left, if_pos]
    · rw [h4]
    · simp only [Bool.and_eq_true, List.isPrefixOf_iff_prefix, List.all_eq_true]
      exact ⟨⟨⟨ds, rfl⟩, by simpa using h2⟩, h3⟩

theorem isFlat_iff {pre key : String} : IsFlat pre key ↔ ∃ i, idxOf pre key = some i := by
  constructor
  · rintro ⟨ds, h1, h2, h3⟩
    exact ⟨_, idxOf_eq_some.2 ⟨ds, h1, h2, h3, rfl⟩⟩
  · rintro ⟨i, h⟩
    obtain ⟨ds, h1, h2, h3, _⟩ := idxOf_eq_some.1 h
    exact ⟨ds, h1, h2, h3⟩

theorem idxOf_flatKey (pre : String) (i : ℕ) : idxOf pre (flatKey pre i) = some i := by
  apply idxOf_eq_some.2
  refine ⟨Nat.toDigits 10 i, ?_, Nat.toDigits_ne_nil, ?_, Nat.ofDigitChars_ten_toDigits⟩
  · unfold flatKey
    rw [String.toList_append, Nat.toString_eq_ofList_toDigits, String.toList_ofList]
  · intro c hc
    exact Nat.isDigit_of_mem_toDigits (by decide) (by decide) hc

theorem flatKey_inj {pre : String} {i j : ℕ} (h : flatKey pre i = flatKey pre j) : i = j := by
  have := idxOf_flatKey pre i
  rw [h, idxOf_flatKey] at this
  exact (Option.some.inj this).symm

/-! ## what extraction computes -/

/-- Value the fold leaves at index `i`: that of the last entry with this index. -/
def lastAt (isNone : PVal V → Bool) (pre : String) (l : Dict (PVal V)) (i : ℕ) : Option (PVal V) :=
  l.foldl (fun acc kv => if idxOf pre kv.1 = some i then (if isNone kv.2 then none else some kv.2) else acc) none

theorem place_get (values : List (Option (PVal V))) (i : ℕ) (v : PVal V) (j : ℕ) :
    ((place isNone values i v)[j]?).join =
      if j = i then (if isNone v then none else some v) else (values[j]?).join := by
  unfold place
  simp only
  rw [List.getElem?_set]
  by_cases h : i = j
  · subst h
    rw [if_pos rfl, if_pos rfl, if_pos (by simp; omega)]
    rfl
  · rw [if_neg h, if_neg (Ne.symm h), List.getElem?_append]
    split
    · rfl
    · next hl =>
      rw [List.getElem?_eq_none (l := values) (by omega), List.getElem?_replicate]
      split <;> rfl

/-- State of the extraction fold. -/
theorem fold_state (pre : String) (l : Dict (PVal V)) :
    let r := l.foldl (extractStep isNone pre) ([], [])
    (∀ j, (r.1[j]?).join = lastAt isNone pre l j) ∧
    r.2 = (Dict.keys l).filter (fun k => (idxOf pre k).isSome) := by
  have gen : ∀ (l : Dict (PVal V)) (a : List (Option (PVal V)) × List String),
      let r := l.foldl (extractStep isNone pre) a
      (∀ j, (r.1[j]?).join = l.foldl (fun acc kv => if idxOf pre kv.1 = some j then
          (if isNone kv.2 then none else some kv.2) else acc) ((a.1[j]?).join)) ∧
      r.2 = a.2 ++ (Dict.keys l).filter (fun k => (idxOf pre k).isSome) := by
    intro l
    induction l with
    | nil => intro a; simp [Dict.keys]
    | cons kv l ih =>
      intro a
      simp only [List.foldl_cons, Dict.keys, List.map_cons, extractStep]
      cases h : idxOf pre kv.1 with
      | none =>
        have := ih a
        simp only [Dict.keys] at this
        refine ⟨fun j => ?_, ?_⟩
        · rw [this.1 j]; simp
        · rw [this.2, List.filter_cons_of_neg (by simp [h])]
      | some i =>
        have := ih (place isNone a.1 i kv.2, a.2 ++ [kv.1])
        simp only [Dict.keys] at this
        refine ⟨fun j => ?_, ?_⟩
        · rw [this.1 j, place_get]
          by_cases hj : j = i
          · subst hj; simp
          · have : ¬ (i = j) := fun h => hj h.symm
            simp [hj, this]
        · rw [this.2, List.filter_cons_of_pos (by simp [h])]; simp
  have := gen l ([], [])
  simpa [lastAt] using this

/-- In a dictionary whose flat keys are exactly those with indices `is`, the value left at an index
is the dictionary's. -/
theorem lastAt_of (d : Dict (PVal V)) (hd : Dict.WF d) (pre : String) (i : ℕ)
    (only : ∀ key ∈ Dict.keys d, idxOf pre key = some i → key = flatKey pre i) :
    lastAt isNone pre d i = (Dict.get? d (flatKey pre i)).bind (fun v => if isNone v then none else some v) := by
  have gen : ∀ (l : Dict (PVal V)) (acc : Option (PVal V)), Dict.WF l →
      (∀ key ∈ Dict.keys l, idxOf pre key = some i → key = flatKey pre i) →
      l.foldl (fun acc kv => if idxOf pre kv.1 = some i then
          (if isNone kv.2 then none else some kv.2) else acc) acc =
        match Dict.get? l (flatKey pre i) with
        | some v => if isNone v then none else some v
        | none => acc := by
    intro l
    induction l with
    | nil => intro acc _ _; rfl
    | cons kv l ih =>
      intro acc hwf honly
      obtain ⟨hn, hwf'⟩ := Dict.WF_cons.1 hwf
      have honly' : ∀ key ∈ Dict.keys l, idxOf pre key = some i → key = flatKey pre i :=
        fun k hk => honly k (by simp only [Dict.keys, List.map_cons, List.mem_cons]; exact Or.inr hk)
      simp only [List.foldl_cons]
      rw [ih _ hwf' honly', Dict.get?_cons]
      by_cases hk : kv.1 = flatKey pre i
      · rw [if_pos hk]
        have : Dict.get? l (flatKey pre i) = none := by
          rw [Dict.get?_eq_none_iff, ← hk]; exact hn
        rw [this, if_pos (by rw [hk]; exact idxOf_flatKey pre i)]
      · rw [if_neg hk, if_neg]
        intro h
        exact hk (honly kv.1 (by simp [Dict.keys]) h)
  have := gen d none hd only
  unfold lastAt
  rw [this]
  cases Dict.get? d (flatKey pre i) <;> rfl

/-- A list of optional values whose non-empty positions are `is` (increasing), reading `xs`. -/
theorem filterMap_of_positions (vals : List (Option (PVal V))) (is : List ℕ) (xs : List (PVal V))
    (off : ℕ) (hlen : is.length = xs.length) (inc : is.Pairwise (· < ·)) (hoff : ∀ i ∈ is, off ≤ i)
    (hget : ∀ j (h : j < is.length) (h' : j < xs.length), (vals[is[j] - off]?).join = some xs[j])
    (hnone : ∀ i, off ≤ i → i ∉ is → (vals[i - off]?).join = none) :
    vals.filterMap id = xs := by
  induction vals generalizing is xs off with
  | nil =>
    cases is with
    | nil => cases xs with
      | nil => rfl
      | cons _ _ => simp at hlen
    | cons i is =>
      cases xs with
      | nil => simp at hlen
      | cons x xs => have := hget 0 (by simp) (by simp); simp at this
  | cons v vals ih =>
    by_cases hm : off ∈ is
    · -- `off` is the first index
      cases is with
      | nil => simp at hm
      | cons i is =>
        cases xs with
        | nil => simp at hlen
        | cons x xs =>
          have hi : i = off := by
            rcases List.mem_cons.1 hm with h | h
            · exact h.symm
            · have h1 := (List.pairwise_cons.1 inc).1 off h
              have h2 := hoff i (by simp)
              omega
          subst hi
          have h0 := hget 0 (by simp) (by simp)
          simp only [List.getElem_cons_zero, Nat.sub_self, List.getElem?_cons_zero, Option.join_some] at h0
          rw [h0]
          rw [List.filterMap_cons_some (f := id) (a := some x) (b := x) rfl]
          congr 1
          have hinc := List.pairwise_cons.1 inc
          apply ih is xs (i + 1) (by simpa using hlen) hinc.2
          · intro k hk; exact hinc.1 k hk
          · intro j h h'
            have := hget (j + 1) (by simpa using h) (by simpa using h')
            have hlt := hinc.1 is[j] (List.getElem_mem h)
            simp only [List.getElem_cons_succ] at this
            rw [show is[j] - i = (is[j] - (i + 1)) + 1 by omega, List.getElem?_cons_succ] at this
            exact this
          · intro k hk hkm
            have := hnone k (by omega) (by
              intro h; rcases List.mem_cons.1 h with h | h
              · omega
              · exact hkm h)
            rw [show k - i = (k - (i + 1)) + 1 by omega, List.getElem?_cons_succ] at this
            exact this
    · have h0 := hnone off (Nat.le_refl _) hm
      simp only [Nat.sub_self, List.getElem?_cons_zero, Option.join_some] at h0
      rw [h0]
      rw [List.filterMap_cons_none (f := id) (a := none) rfl]
      apply ih is xs (off + 1) hlen inc
      · intro k hk
        have := hoff k hk
        have : k ≠ off := fun h => hm (h ▸ hk)
        omega
      · intro j h h'
        have := hget j h h'
        have h1 := hoff is[j] (List.getElem_mem h)
        have h2 : is[j] ≠ off := fun h' => hm (h' ▸ List.getElem_mem h)
        rw [show is[j] - off = (is[j] - (off + 1)) + 1 by omega, List.getElem?_cons_succ] at this
        exact this
      · intro k hk hkm
        have := hnone k (by omega) hkm
        rw [show k - off = (k - (off + 1)) + 1 by omega, List.getElem?_cons_succ] at this
        exact this

/-- Extraction returns the list and the flat keys, whatever the order. -/
theorem extract_eq (d : Dict (PVal V)) (hd : Dict.WF d) (pre : String) (is : List ℕ) (xs : List (PVal V))
    (h : GivesFlat isNone d pre is xs) :
    (extract isNone d pre).1 = xs ∧
    (extract isNone d pre).2 = (Dict.keys d).filter (fun k => (idxOf pre k).isSome) := by
  obtain ⟨h1, h2⟩ := fold_state (isNone := isNone) pre d
  refine ⟨?_, h2⟩
  have only : ∀ i, ∀ key ∈ Dict.keys d, idxOf pre key = some i → key = flatKey pre i := by
    intro i key hk hi
    obtain ⟨j, _, rfl⟩ := h.only key hk (isFlat_iff.2 ⟨i, hi⟩)
    rw [idxOf_flatKey] at hi
    rw [Option.some.inj hi]
  unfold extract
  apply filterMap_of_positions _ is xs 0 h.len h.inc (by simp)
  · intro j hj hj'
    rw [Nat.sub_zero, h1, lastAt_of d hd pre _ (only _), h.get j hj hj']
    simp [h.real _ (List.getElem_mem hj')]
  · intro i _ hi
    rw [Nat.sub_zero, h1, lastAt_of d hd pre _ (only _)]
    have : Dict.get? d (flatKey pre i) = none := by
      rw [Dict.get?_eq_none_iff]
      intro hk
      obtain ⟨j, hj, hkey⟩ := h.only _ hk (isFlat_iff.2 ⟨i, idxOf_flatKey pre i⟩)
      rw [flatKey_inj hkey] at hi
      exact hi hj
    rw [this]; rfl

/-! ## popping -/

theorem mem_keys_erase (d : Dict (PVal V)) (k k' : String) :
    k' ∈ Dict.keys (Dict.erase d k) ↔ k' ∈ Dict.keys d ∧ k' ≠ k := by
  simp only [Dict.keys, Dict.erase, List.mem_map, List.mem_filter, decide_eq_true_eq]
  constructor
  · rintro ⟨a, ⟨h1, h2⟩, rfl⟩; exact ⟨⟨a, h1, rfl⟩, by simpa using h2⟩
  · rintro ⟨⟨a, h1, rfl⟩, h2⟩; exact ⟨a, ⟨h1, by simpa using h2⟩, rfl⟩

theorem popAll_ok (d : Dict (PVal V)) (ks : List String) (hnd : ks.Nodup) (hin : ∀ k ∈ ks, k ∈ Dict.keys d) :
    ∃ r, popAll d ks = .ok r ∧ ∀ k, Dict.get? r k = if k ∈ ks then none else Dict.get? d k := by
  induction ks generalizing d with
  | nil => exact ⟨d, rfl, by simp⟩
  | cons k ks ih =>
    obtain ⟨hk, hnd'⟩ := List.nodup_cons.1 hnd
    obtain ⟨r, hr, hget⟩ := ih (Dict.erase d k) hnd' (by
      intro k' hk'
      rw [mem_keys_erase]
      exact ⟨hin k' (by simp [hk']), fun h => hk (h ▸ hk')⟩)
    refine ⟨r, ?_, ?_⟩
    · rw [popAll, if_pos ((Dict.has_iff d k).2 (hin k (by simp)))]; exact hr
    · intro k'
      rw [hget, Dict.get?_erase]
      by_cases h1 : k' = k
      · simp [h1]
      · simp [h1, Ne.symm h1]

/-! ## adding the function keys does not disturb the flat ones -/

theorem not_flat_fn (pre name : String) (h : pre.toList.isPrefixOf name.toList = false) : ¬ IsFlat pre name := by
  rintro ⟨ds, h1, _⟩
  have : pre.toList.isPrefixOf name.toList = true := by
    rw [List.isPrefixOf_iff_prefix]; exact ⟨ds, h1.symm⟩
  rw [h] at this; simp at this

theorem givesFlat_set {d : Dict (PVal V)} {pre : String} {is : List ℕ} {xs : List (PVal V)}
    (h : GivesFlat isNone d pre is xs) (name : String) (v : PVal V)
    (hn : pre.toList.isPrefixOf name.toList = false) :
    GivesFlat isNone (Dict.set d name v) pre is xs := by
  have hne : ∀ i, flatKey pre i ≠ name := by
    intro i he
    exact not_flat_fn pre name hn (isFlat_iff.2 ⟨i, he ▸ idxOf_flatKey pre i⟩)
  refine ⟨h.len, h.inc, ?_, ?_, h.real⟩
  · intro j hj hj'
    rw [Dict.get?_set, if_neg (fun he => hne _ he.symm)]
    exact h.get j hj hj'
  · intro key hk hf
    rcases (Dict.mem_keys_set d name v key).1 hk with rfl | hk
    · exact absurd hf (not_flat_fn pre _ hn)
    · exact h.only key hk hf

/-- The concrete prefix facts used below. -/
theorem fnNotFlat : ¬ IsAnyFlat "rb_function" ∧ ¬ IsAnyFlat "rs_function" := by
  constructor
  · rintro (h | h | h | h) <;> exact not_flat_fn _ _ (by decide) h
  · rintro (h | h | h | h) <;> exact not_flat_fn _ _ (by decide) h

/-! ## the main theorem -/

theorem flat_disjoint {p q : String} (hpq : ¬ (p.toList <+: q.toList)) (hqp : ¬ (q.toList <+: p.toList))
    {key : String} (h1 : IsFlat p key) (h2 : IsFlat q key) : False := by
  obtain ⟨a, ha, _⟩ := h1
  obtain ⟨b, hb, _⟩ := h2
  have h1 : p.toList <+: key.toList := ⟨a, ha.symm⟩
  have h2 : q.toList <+: key.toList := ⟨b, hb.symm⟩
  rcases List.prefix_or_prefix_of_prefix h1 h2 with h | h
  · exact hpq h
  · exact hqp h

theorem WF_keys_filter_nodup {d : Dict (PVal V)} (hd : Dict.WF d) (f : String → Bool) :
    ((Dict.keys d).filter f).Nodup := List.Nodup.filter _ hd

theorem extract_empty_of_no_flat (d : Dict (PVal V)) (pre : String)
    (h : ∀ key ∈ Dict.keys d, ¬ IsFlat pre key) : GivesFlat isNone d pre [] [] :=
  ⟨rfl, List.Pairwise.nil, by simp, fun k hk hf => absurd hf (h k hk), by simp⟩

theorem get_if_set (d : Dict (PVal V)) (name : String) (v : PVal V) (xs : List (PVal V)) (k : String) :
    Dict.get? (if xs = [] then d else Dict.set d name v) k =
      if k = name ∧ xs ≠ [] then some v else Dict.get? d k := by
  by_cases hc : xs = []
  · simp [hc]
  · rw [if_neg hc, Dict.get?_set]
    by_cases hk : name = k
    · rw [if_pos hk, if_pos ⟨hk.symm, hc⟩]
    · rw [if_neg hk, if_neg (fun h => hk h.1.symm)]

set_option maxHeartbeats 1000000 in
/-- C27: giving coefficients and timescales as flat keys (any key order, any other keys, indices
possibly with gaps) yields a parameter set in which exactly the flat keys are gone, `rb_function` and
`rs_function` hold the lists in index order, and every other key is untouched. -/
theorem C27_flat_to_structured (d : Dict (PVal V)) (hd : Dict.WF d)
    (ib jb is js : List ℕ) (cb tb cs ts : List (PVal V))
    (hcb : GivesFlat isNone d "rb_coef" ib cb) (htb : GivesFlat isNone d "rb_tim" jb tb)
    (hcs : GivesFlat isNone d "rs_coef" is cs) (hts : GivesFlat isNone d "rs_tim" js ts)
    (hb : cb.length = tb.length) (hs : cs.length = ts.length + 1 ∨ (cs = [] ∧ ts = [])) :
    ∃ r, processFlat isNone d = .ok r ∧
      (∀ key, IsAnyFlat key → Dict.get? r key = none) ∧
      Dict.get? r "rb_function" = (if cb = [] then Dict.get? d "rb_function" else some (.fn cb tb)) ∧
      Dict.get? r "rs_function" = (if cs = [] then Dict.get? d "rs_function" else some (.fn cs ts)) ∧
      ∀ key, ¬ IsAnyFlat key → key ≠ "rb_function" → key ≠ "rs_function" →
        Dict.get? r key = Dict.get? d key := by
  -- stage 1
  obtain ⟨a1, a2⟩ := extract_eq d hd _ _ _ hcb
  obtain ⟨b1, b2⟩ := extract_eq d hd _ _ _ htb
  let d1 := if cb = [] then d else Dict.set d "rb_function" (.fn cb tb)
  let k1 := if cb = [] then [] else (Dict.keys d).filter (fun k => (idxOf "rb_coef" k).isSome)
      ++ (Dict.keys d).filter (fun k => (idxOf "rb_tim" k).isSome)
  have st1 : processRb isNone d = .ok (d1, k1) := by
    unfold processRb
    simp only [a1, a2, b1, b2]
    by_cases hc : cb = []
    · have : tb = [] := by simpa [hc] using hb.symm
      simp [hc, this, d1, k1]
    · simp [hc, hb, d1, k1]
  have hd1 : Dict.WF d1 := by
    simp only [d1]; split
    · exact hd
    · exact Dict.WF_set _ _ _ hd
  have hcs1 : GivesFlat isNone d1 "rs_coef" is cs := by
    simp only [d1]; split
    · exact hcs
    · exact givesFlat_set hcs _ _ (by decide)
  have hts1 : GivesFlat isNone d1 "rs_tim" js ts := by
    simp only [d1]; split
    · exact hts
    · exact givesFlat_set hts _ _ (by decide)
  obtain ⟨e1, e2⟩ := extract_eq d1 hd1 _ _ _ hcs1
  obtain ⟨f1, f2⟩ := extract_eq d1 hd1 _ _ _ hts1
  let d2 := if cs = [] then d1 else Dict.set d1 "rs_function" (.fn cs ts)
  let k2 := if cs = [] then [] else (Dict.keys d1).filter (fun k => (idxOf "rs_coef" k).isSome)
      ++ (Dict.keys d1).filter (fun k => (idxOf "rs_tim" k).isSome)
  have st2 : processRs isNone d1 = .ok (d2, k2) := by
    unfold processRs
    simp only [e1, e2, f1, f2]
    by_cases hc : cs = []
    · have : ts = [] := by
        rcases hs with h | h
        · rw [hc] at h; simp at h
        · exact h.2
      simp [hc, this, d2, k2]
    · have hl : cs.length = ts.length + 1 := by
        rcases hs with h | h
        · exact h
        · exact absurd h.1 hc
      simp [hc, hl, d2, k2]
  -- membership in the list of keys to remove
  have keys1 : ∀ k, k ∈ Dict.keys d → k ∈ Dict.keys d1 := by
    intro k hk; simp only [d1]; split
    · exact hk
    · exact (Dict.mem_keys_set _ _ _ _).2 (Or.inr hk)
  have keys1' : ∀ k, k ∈ Dict.keys d1 → k ∈ Dict.keys d ∨ k = "rb_function" := by
    intro k; simp only [d1]; split
    · exact Or.inl
    · intro h; rcases (Dict.mem_keys_set _ _ _ _).1 h with h | h
      · exact Or.inr h
      · exact Or.inl h
  have keys2 : ∀ k, k ∈ Dict.keys d1 → k ∈ Dict.keys d2 := by
    intro k hk; simp only [d2]; split
    · exact hk
    · exact (Dict.mem_keys_set _ _ _ _).2 (Or.inr hk)
  have flatmem : ∀ (pre : String) (e : Dict (PVal V)) (k : String),
      k ∈ (Dict.keys e).filter (fun k => (idxOf pre k).isSome) ↔ k ∈ Dict.keys e ∧ IsFlat pre k := by
    intro pre e k
    rw [List.mem_filter, isFlat_iff, Option.isSome_iff_exists]
  have noflat : ∀ {pre ix} {e : Dict (PVal V)}, GivesFlat isNone e pre ix [] → ∀ k ∈ Dict.keys e, ¬ IsFlat pre k := by
    intro pre ix e h k hk hf
    obtain ⟨i, hi, _⟩ := h.only k hk hf
    have := h.len
    rw [List.length_nil, List.length_eq_zero_iff] at this
    rw [this] at hi; simp at hi
  have mem_k1 : ∀ k, k ∈ k1 ↔ k ∈ Dict.keys d ∧ (IsFlat "rb_coef" k ∨ IsFlat "rb_tim" k) := by
    intro k
    simp only [k1]
    split
    · next hc =>
      subst hc
      have ht : tb = [] := by simpa using hb.symm
      subst ht
      constructor
      · simp
      · rintro ⟨h1, h2 | h2⟩
        · exact absurd h2 (noflat hcb k h1)
        · exact absurd h2 (noflat htb k h1)
    · rw [List.mem_append, flatmem, flatmem]; tauto
  have mem_k2 : ∀ k, k ∈ k2 ↔ k ∈ Dict.keys d ∧ (IsFlat "rs_coef" k ∨ IsFlat "rs_tim" k) := by
    intro k
    have hfn : ∀ k, k ∈ Dict.keys d1 → (IsFlat "rs_coef" k ∨ IsFlat "rs_tim" k) → k ∈ Dict.keys d := by
      intro k hk hf
      rcases keys1' k hk with h | h
      · exact h
      · subst h
        rcases hf with hf | hf
        · exact absurd hf (not_flat_fn _ _ (by decide))
        · exact absurd hf (not_flat_fn _ _ (by decide))
    simp only [k2]
    split
    · next hc =>
      subst hc
      have ht : ts = [] := by
        rcases hs with h | h
        · simp at h
        · exact h.2
      subst ht
      constructor
      · simp
      · rintro ⟨h1, h2 | h2⟩
        · exact absurd h2 (noflat hcs k h1)
        · exact absurd h2 (noflat hts k h1)
    · rw [List.mem_append, flatmem, flatmem]
      constructor
      · rintro (⟨h1, h2⟩ | ⟨h1, h2⟩)
        · exact ⟨hfn k h1 (Or.inl h2), Or.inl h2⟩
        · exact ⟨hfn k h1 (Or.inr h2), Or.inr h2⟩
      · rintro ⟨h1, h2 | h2⟩
        · exact Or.inl ⟨keys1 k h1, h2⟩
        · exact Or.inr ⟨keys1 k h1, h2⟩
  have nd1 : k1.Nodup := by
    simp only [k1]
    split
    · exact List.nodup_nil
    · apply List.Nodup.append (WF_keys_filter_nodup hd _) (WF_keys_filter_nodup hd _)
      intro k h1 h2
      exact flat_disjoint (by decide) (by decide) ((flatmem _ _ _).1 h1).2 ((flatmem _ _ _).1 h2).2
  have nd2 : k2.Nodup := by
    simp only [k2]
    split
    · exact List.nodup_nil
    · apply List.Nodup.append (WF_keys_filter_nodup hd1 _) (WF_keys_filter_nodup hd1 _)
      intro k h1 h2
      exact flat_disjoint (by decide) (by decide) ((flatmem _ _ _).1 h1).2 ((flatmem _ _ _).1 h2).2
  have nd : (k1 ++ k2).Nodup := by
    apply List.Nodup.append nd1 nd2
    intro k h1 h2
    rcases ((mem_k1 k).1 h1).2 with a | a <;> rcases ((mem_k2 k).1 h2).2 with b | b
    · exact flat_disjoint (by decide) (by decide) a b
    · exact flat_disjoint (by decide) (by decide) a b
    · exact flat_disjoint (by decide) (by decide) a b
    · exact flat_disjoint (by decide) (by decide) a b
  obtain ⟨r, hr, hget⟩ := popAll_ok d2 (k1 ++ k2) nd (by
    intro k hk
    rcases List.mem_append.1 hk with h | h
    · exact keys2 k (keys1 k ((mem_k1 k).1 h).1)
    · exact keys2 k (keys1 k ((mem_k2 k).1 h).1))
  have memAll : ∀ k, k ∈ k1 ++ k2 ↔ k ∈ Dict.keys d ∧ IsAnyFlat k := by
    intro k; rw [List.mem_append, mem_k1, mem_k2]; unfold IsAnyFlat; tauto
  have get2 : ∀ k, Dict.get? d2 k =
      if k = "rs_function" ∧ cs ≠ [] then some (.fn cs ts)
      else if k = "rb_function" ∧ cb ≠ [] then some (.fn cb tb) else Dict.get? d k :=
    fun k => (get_if_set d1 "rs_function" _ cs k).trans (by rw [get_if_set d "rb_function" _ cb k])
  -- the early-return branch
  by_cases hh : hasFlat d = true
  · refine ⟨r, ?_, ?_, ?_, ?_, ?_⟩
    · unfold processFlat
      rw [if_pos hh, st1]
      simp only [bind, Except.bind]
      rw [st2]
      exact hr
    · intro key hf
      rw [hget]
      by_cases hk : key ∈ Dict.keys d
      · rw [if_pos ((memAll key).2 ⟨hk, hf⟩)]
      · rw [if_neg (fun h => hk ((memAll key).1 h).1), get2]
        have h1 : key ≠ "rs_function" := fun h => fnNotFlat.2 (h ▸ hf)
        have h2 : key ≠ "rb_function" := fun h => fnNotFlat.1 (h ▸ hf)
        simp [h1, h2, (Dict.get?_eq_none_iff d key).2 hk]
    · rw [hget, if_neg (fun h => fnNotFlat.1 ((memAll _).1 h).2), get2]
      simp
    · rw [hget, if_neg (fun h => fnNotFlat.2 ((memAll _).1 h).2), get2]
      simp
    · intro key hf h1 h2
      rw [hget, if_neg (fun h => hf ((memAll _).1 h).2), get2]
      simp [h1, h2]
  · -- no key even starts with a flat prefix
    have hno : ∀ pre ∈ ["rb_coef", "rb_tim", "rs_coef", "rs_tim"], ∀ k ∈ Dict.keys d, ¬ IsFlat pre k := by
      intro pre hp k hk hf
      apply hh
      unfold hasFlat
      rw [List.any_eq_true]
      obtain ⟨kv, hkv, rfl⟩ := List.mem_map.1 hk
      refine ⟨kv, hkv, ?_⟩
      rw [List.any_eq_true]
      obtain ⟨ds, hds, _⟩ := hf
      exact ⟨pre, hp, by rw [List.isPrefixOf_iff_prefix]; exact ⟨ds, hds.symm⟩⟩
    have empt : ∀ {pre ix ys}, GivesFlat isNone d pre ix ys → (∀ k ∈ Dict.keys d, ¬ IsFlat pre k) → ys = [] := by
      intro pre ix ys h hn
      by_contra hne
      have hp : 0 < ys.length := List.length_pos_iff.2 hne
      have hp' : 0 < ix.length := by rw [h.len]; exact hp
      have := h.get 0 hp' hp
      have hk : flatKey pre ix[0] ∈ Dict.keys d := (Dict.get?_isSome_iff d _).1 ⟨_, this⟩
      exact hn _ hk (isFlat_iff.2 ⟨_, idxOf_flatKey pre _⟩)
    have c1 := empt hcb (hno _ (by simp))
    have c2 := empt hcs (hno _ (by simp))
    refine ⟨d, ?_, ?_, by simp [c1], by simp [c2], fun _ _ _ _ => rfl⟩
    · unfold processFlat; rw [if_neg hh]
    · intro key hf
      rw [Dict.get?_eq_none_iff]
      intro hk
      rcases hf with h | h | h | h
      · exact hno _ (by simp) key hk h
      · exact hno _ (by simp) key hk h
      · exact hno _ (by simp) key hk h
      · exact hno _ (by simp) key hk h

/-- C27: the structured form passes through unchanged. -/
theorem C27_structured_unchanged (d : Dict (PVal V))
    (h : ∀ key ∈ Dict.keys d, ∀ pre ∈ ["rb_coef", "rb_tim", "rs_coef", "rs_tim"],
      ¬ (pre.toList <+: key.toList)) :
    processFlat isNone d = .ok d := by
  unfold processFlat
  rw [if_neg]
  unfold hasFlat
  rw [List.any_eq_true]
  rintro ⟨kv, hkv, hany⟩
  rw [List.any_eq_true] at hany
  obtain ⟨pre, hp, hpre⟩ := hany
  exact h kv.1 (List.mem_map.2 ⟨kv, hkv, rfl⟩) pre hp (List.isPrefixOf_iff_prefix.1 hpre)

/-- C27: a count mismatch is rejected. -/
theorem C27_mismatch_rejected (d : Dict (PVal V)) (hd : Dict.WF d)
    (ib jb : List ℕ) (cb tb : List (PVal V))
    (hcb : GivesFlat isNone d "rb_coef" ib cb) (htb : GivesFlat isNone d "rb_tim" jb tb)
    (hb : cb.length ≠ tb.length) :
    processFlat isNone d = .error .valueError := by
  obtain ⟨a1, a2⟩ := extract_eq d hd _ _ _ hcb
  obtain ⟨b1, b2⟩ := extract_eq d hd _ _ _ htb
  have hne : ∃ pre ∈ ["rb_coef", "rb_tim", "rs_coef", "rs_tim"], ∃ k ∈ Dict.keys d, IsFlat pre k := by
    have aux : ∀ {pre ix ys}, GivesFlat isNone d pre ix ys → ys ≠ [] → ∃ k ∈ Dict.keys d, IsFlat pre k := by
      intro pre ix ys h hne
      have hp : 0 < ys.length := List.length_pos_iff.2 hne
      have hp' : 0 < ix.length := by rw [h.len]; exact hp
      exact ⟨_, (Dict.get?_isSome_iff d _).1 ⟨_, h.get 0 hp' hp⟩, isFlat_iff.2 ⟨_, idxOf_flatKey pre _⟩⟩
    by_cases hc : cb = []
    · have : tb ≠ [] := by rintro rfl; simp [hc] at hb
      exact ⟨"rb_tim", by simp, aux htb this⟩
    · exact ⟨"rb_coef", by simp, aux hcb hc⟩
  have hh : hasFlat d = true := by
    obtain ⟨pre, hp, k, hk, ds, hds, _⟩ := hne
    unfold hasFlat
    rw [List.any_eq_true]
    obtain ⟨kv, hkv, rfl⟩ := List.mem_map.1 hk
    refine ⟨kv, hkv, ?_⟩
    rw [List.any_eq_true]
    exact ⟨pre, hp, by rw [List.isPrefixOf_iff_prefix]; exact ⟨ds, hds.symm⟩⟩
  unfold processFlat
  rw [if_pos hh]
  have : processRb isNone d = .error .valueError := by
    unfold processRb
    simp only [a1, b1]
    rw [if_neg, if_pos hb]
    simp only [Bool.and_eq_true, List.isEmpty_iff, not_and]
    rintro rfl rfl
    simp at hb
  rw [this]; rfl

/-- C27: likewise for the ocean response, which needs one more coefficient than timescales. -/
theorem C27_mismatch_rejected_rs (d : Dict (PVal V)) (hd : Dict.WF d)
    (ib jb is js : List ℕ) (cb tb cs ts : List (PVal V))
    (hcb : GivesFlat isNone d "rb_coef" ib cb) (htb : GivesFlat isNone d "rb_tim" jb tb)
    (hcs : GivesFlat isNone d "rs_coef" is cs) (hts : GivesFlat isNone d "rs_tim" js ts)
    (hs : cs.length ≠ ts.length + 1) (hne : cs ≠ [] ∨ ts ≠ []) :
    processFlat isNone d = .error .valueError := by
  by_cases hb : cb.length = tb.length
  · obtain ⟨a1, a2⟩ := extract_eq d hd _ _ _ hcb
    obtain ⟨b1, b2⟩ := extract_eq d hd _ _ _ htb
    have hh : hasFlat d = true := by
      have aux : ∀ {pre ix ys}, GivesFlat isNone d pre ix ys → ys ≠ [] → ∃ k ∈ Dict.keys d, IsFlat pre k := by
        intro pre ix ys h hne
        have hp : 0 < ys.length := List.length_pos_iff.2 hne
        have hp' : 0 < ix.length := by rw [h.len]; exact hp
        exact ⟨_, (Dict.get?_isSome_iff d _).1 ⟨_, h.get 0 hp' hp⟩, isFlat_iff.2 ⟨_, idxOf_flatKey pre _⟩⟩
      have : ∃ pre ∈ ["rb_coef", "rb_tim", "rs_coef", "rs_tim"], ∃ k ∈ Dict.keys d, IsFlat pre k := by
        rcases hne with h | h
        · exact ⟨"rs_coef", by simp, aux hcs h⟩
        · exact ⟨"rs_tim", by simp, aux hts h⟩
      obtain ⟨pre, hp, k, hk, ds, hds, _⟩ := this
      unfold hasFlat
      rw [List.any_eq_true]
      obtain ⟨kv, hkv, rfl⟩ := List.mem_map.1 hk
      refine ⟨kv, hkv, ?_⟩
      rw [List.any_eq_true]
      exact ⟨pre, hp, by rw [List.isPrefixOf_iff_prefix]; exact ⟨ds, hds.symm⟩⟩
    let d1 := if cb = [] then d else Dict.set d "rb_function" (.fn cb tb)
    have st1 : ∃ k, processRb isNone d = .ok (d1, k) := by
      unfold processRb
      simp only [a1, a2, b1, b2]
      by_cases hc : cb = []
      · have : tb = [] := by simpa [hc] using hb.symm
        simp [hc, this, d1]
      · simp [hc, hb, d1]
    obtain ⟨k1, st1⟩ := st1
    have hd1 : Dict.WF d1 := by
      simp only [d1]; split
      · exact hd
      · exact Dict.WF_set _ _ _ hd
    have hcs1 : GivesFlat isNone d1 "rs_coef" is cs := by
      simp only [d1]; split
      · exact hcs
      · exact givesFlat_set hcs _ _ (by decide)
    have hts1 : GivesFlat isNone d1 "rs_tim" js ts := by
      simp only [d1]; split
      · exact hts
      · exact givesFlat_set hts _ _ (by decide)
    obtain ⟨e1, _⟩ := extract_eq d1 hd1 _ _ _ hcs1
    obtain ⟨f1, _⟩ := extract_eq d1 hd1 _ _ _ hts1
    unfold processFlat
    rw [if_pos hh, st1]
    simp only [bind, Except.bind]
    have : processRs isNone d1 = .error .valueError := by
      unfold processRs
      simp only [e1, f1]
      rw [if_neg, if_pos hs]
      simp only [Bool.and_eq_true, List.isEmpty_iff, not_and]
      rintro rfl rfl
      simp at hne
    rw [this]
  · exact C27_mismatch_rejected d hd ib jb cb tb hcb htb hb

/-- Non-vacuity: indices 0 and 2 in reversed order with another key between; the result lists the
values in index order (the gap is closed). -/
example : GivesFlat (V := ℕ) (fun _ => false)
    [("rb_coef2", .val 7), ("beta_f", .val 1), ("rb_coef0", .val 5), ("rb_tim0", .val 3), ("rb_tim1", .val 4)]
    "rb_coef" [0, 2] [.val 5, .val 7] := by
  refine ⟨rfl, by simp, ?_, ?_, by simp⟩
  · intro j hj hj'
    have : j = 0 ∨ j = 1 := by simp at hj; omega
    rcases this with rfl | rfl
    · have : flatKey "rb_coef" 0 = "rb_coef0" := by decide
      simp [Dict.get?, this]
    · have : flatKey "rb_coef" 2 = "rb_coef2" := by decide
      simp [Dict.get?, this]
  · intro key hk hf
    simp only [Dict.keys, List.map_cons, List.map_nil, List.mem_cons, List.not_mem_nil, or_false] at hk
    rcases hk with rfl | rfl | rfl | rfl | rfl
    · exact ⟨2, by simp, by decide⟩
    · exact absurd hf (not_flat_fn _ _ (by decide))
    · exact ⟨0, by simp, by decide⟩
    · exact absurd hf (not_flat_fn _ _ (by decide))
    · exact absurd hf (not_flat_fn _ _ (by decide))

end Verif.Props.FlatPams
