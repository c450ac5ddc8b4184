import Verif.Model.Sampling
import Verif.Spec.Sampling
import Verif.Py.RealInst
import Verif.Lemmas.UDM
import Verif.Props.C44_C45

/-!
# C87: a configuration drawn from a distribution has every sampled parameter in its own interval
-/

namespace Verif.Props
open Verif.Py Verif.Model.ConfigDistro Verif.Model.Sampling Verif.Spec
open Verif.Lemmas.UDM (sci0 sci1 sci2)

/-! ## Helpers -/

theorem setPrior_get {o : List String} {ds : Dict (List ℝ)} {prior : List (ℝ × ℝ)}
    (h : setPrior o ds = .ok prior) :
    prior.length = o.length ∧ ∀ (j : ℕ) (k : String), o[j]? = some k →
      ∃ l b, Dict.get? ds k = some l ∧ bounds l = .ok b ∧ prior[j]? = some b := by
  unfold setPrior at h
  rw [mapM_ok] at h
  have hl : prior.length = o.length := by simpa using (congrArg List.length h).symm
  refine ⟨hl, fun j k hj => ?_⟩
  have hj' := congrArg (fun l => l[j]?) h
  simp only [List.getElem?_map, hj, Option.map_some] at hj'
  cases hp : prior[j]? with
  | none => rw [hp] at hj'; simp at hj'
  | some b =>
    rw [hp, Option.map_some, Option.some.injEq] at hj'
    cases hg : Dict.get? ds k with
    | none => rw [hg] at hj'; simp at hj'
    | some l => rw [hg] at hj'; exact ⟨l, b, rfl, hj', rfl⟩

theorem setPrior_works {o : List String} {ds : Dict (List ℝ)}
    (h : ∀ k ∈ o, ∃ l b, Dict.get? ds k = some l ∧ bounds l = .ok b) :
    ∃ prior, setPrior o ds = .ok prior := by
  cases hm : setPrior o ds with
  | ok r => exact ⟨r, rfl⟩
  | error e =>
    unfold setPrior at hm
    obtain ⟨k, hk, he⟩ := mapM_error hm
    obtain ⟨l, b, h1, h2⟩ := h k hk
    simp only [h1, h2] at he
    cases he

theorem distribution_made {distro : Dict (List ℝ)} {sv : Dict ℝ} {forc : Bool} {m : Option String}
    {d : Full ℝ} (h : construct (some distro) (some sv) (some forc) m = .ok d) :
    d.distro = init forc (Dict.keys distro) sv ∧ d.method = m.getD "latin" ∧
      setPrior (init forc (Dict.keys distro) sv).ordering distro = .ok d.prior := by
  unfold construct at h
  simp only [Option.getD_some] at h
  cases hp : setPrior (init forc (Dict.keys distro) sv).ordering distro with
  | error e => rw [hp, bind_error] at h; cases h
  | ok prior =>
    rw [hp, bind_ok, pure_ok] at h
    simp only [Except.ok.injEq] at h
    subst h
    exact ⟨rfl, rfl, rfl⟩

/-- The configurations made from `n` rows. -/
theorem configs_rows {d : Distro ℝ} {n : ℕ} {row : ℕ → ℕ → ℝ} {f : Option String} {pre : String}
    {chunk : Option ℕ} {r : Lists ℝ} {w : List (Written ℝ)}
    (h : makeConfigLists d ((List.range n).map row) n f pre chunk = .ok (r, w)) :
    (allConfigs r).length = n ∧ ∀ (i : ℕ) (cfg : Config ℝ), (allConfigs r)[i]? = some cfg →
      cfg.sets = sampleSets d (row i) := by
  have hl : ((List.range n).map row).length = n := by simp
  have hc : chunk ≠ some 0 := by
    rintro rfl
    unfold makeConfigLists at h
    simp at h
  obtain ⟨r', w', h', hs⟩ := C44_partition d ((List.range n).map row) f pre chunk hc
  rw [hl, h] at h'
  simp only [Except.ok.injEq, Prod.mk.injEq] at h'
  obtain ⟨rfl, -⟩ := h'
  have hlen : (allConfigs r).length = n := by simpa using congrArg List.length hs
  refine ⟨hlen, fun i cfg hi => ?_⟩
  have hin : i < n := by
    have := (List.getElem?_eq_some_iff.1 hi).1; omega
  have := congrArg (fun l => l[i]?) hs
  simp only [List.getElem?_map, hi, Option.map_some] at this
  rw [List.getElem?_range hin] at this
  simpa using this

/-- The column of a parameter. -/
theorem columns (forc : Bool) (distro : Dict (List ℝ)) (sv : Dict ℝ) :
    ∃ col : String → ℕ, (∀ k, Sampled distro sv forc k →
        (init forc (Dict.keys distro) sv).ordering[col k]? = some k) ∧
      ∀ k k', Sampled distro sv forc k → Sampled distro sv forc k' → col k = col k' → k = k' := by
  classical
  have h : ∀ k, Sampled distro sv forc k → ∃ j : ℕ,
      (init forc (Dict.keys distro) sv).ordering[j]? = some k := fun k hk =>
    List.mem_iff_getElem?.1 (mem_ordering.2 hk)
  refine ⟨fun k => if hk : Sampled distro sv forc k then (h k hk).choose else 0,
    fun k hk => ?_, fun k k' hk hk' he => ?_⟩
  · simp only [dif_pos hk]
    exact (h k hk).choose_spec
  · simp only [dif_pos hk, dif_pos hk'] at he
    have h1 := (h k hk).choose_spec
    have h2 := (h k' hk').choose_spec
    rw [he] at h1
    exact Option.some.inj (h1.symm.trans h2)

theorem bounds_increasing {l : List ℝ} {b : ℝ × ℝ} (h : bounds l = .ok b) (hb : b.1 < b.2) :
    l = [b.1, b.2] := by
  match l, h with
  | [x, y], h => simp only [bounds, Except.ok.injEq] at h; subst h; rfl
  | [x], h =>
    simp only [bounds, Except.ok.injEq] at h
    subst h
    exact absurd hb (lt_irrefl _)
  | [], h => cases h
  | _ :: _ :: _ :: _, h => cases h

/-! ## Latin hypercube sampling -/

/-- C87: with the Latin method (also the default) every configuration has every sampled parameter,
in the set it belongs to and in no other, at the place in the parameter's *own* interval that the
sampler drew; different parameters use different draws. -/
theorem C87_latin (distro : Dict (List ℝ)) (hw : Dict.WF distro) (sv : Dict ℝ) (forc : Bool)
    (m : Option String) (hm : m = none ∨ m = some "latin") (d : Full ℝ)
    (hd : construct (some distro) (some sv) (some forc) m = .ok d) (n : ℕ) (u : ℕ → ℕ → ℝ)
    (f : Option String) (pre : String) (chunk : Option ℕ) (r : Lists ℝ) (w : List (Written ℝ))
    (h : make d n u f pre chunk = .ok (r, w)) :
    (allConfigs r).length = n ∧
    ∃ col : String → ℕ,
      (∀ k k', Sampled distro sv forc k → Sampled distro sv forc k' → col k = col k' → k = k') ∧
      ∀ k, Sampled distro sv forc k → ∃ lo hi, Dict.get? distro k = some [lo, hi] ∧ lo < hi ∧
        ∀ (i : ℕ) (cfg : Config ℝ), (allConfigs r)[i]? = some cfg → ∀ c : Component,
          (IsHome k c → Dict.get? (setOf cfg.sets c) k = some (lo + u i (col k) * (hi - lo))) ∧
          (¬ IsHome k c → Dict.get? (setOf cfg.sets c) k = none) := by
  obtain ⟨e1, e2, e3⟩ := distribution_made hd
  have hmeth : d.method = "latin" := by rcases hm with rfl | rfl <;> simpa using e2
  unfold make at h
  rw [if_pos hmeth] at h
  unfold scaleLatin at h
  by_cases h0 : n = 0 ∨ d.prior = []
  · rw [if_pos h0, bind_error] at h; cases h
  rw [if_neg h0] at h
  by_cases hall : d.prior.all (fun b => decide (b.1 < b.2)) = true
  swap
  · rw [if_neg hall, bind_error] at h; cases h
  rw [if_pos hall, bind_ok] at h
  obtain ⟨hlen, hrows⟩ := configs_rows h
  obtain ⟨col, hcol, hinj⟩ := columns forc distro sv
  refine ⟨hlen, col, hinj, fun k hk => ?_⟩
  obtain ⟨-, hget⟩ := setPrior_get e3
  obtain ⟨l, b, hl, hb, hp⟩ := hget _ _ (hcol k hk)
  have hlt : b.1 < b.2 := by
    have := List.all_eq_true.1 hall b (List.mem_of_getElem? hp)
    simpa using this
  refine ⟨b.1, b.2, by rw [hl, bounds_increasing hb hlt], hlt, fun i cfg hi c => ?_⟩
  rw [hrows i cfg hi, e1]
  have := C45_sampled forc (Dict.keys distro) hw sv
    (latinValue d.prior u i) (col k) k (hcol k hk) c
  have e : latinValue d.prior u i (col k) = b.1 + u i (col k) * (b.2 - b.1) := by
    unfold latinValue
    rw [hp]
    ring
  rwa [e] at this

/-- C87: if the sampler is a Latin hypercube (each of its columns has one value in each `n`-th part
of the unit interval), then so are the configurations: the `n` values of a sampled parameter lie in
its interval, one in each of `n` equal parts. -/
theorem C87_one_in_each (distro : Dict (List ℝ)) (hw : Dict.WF distro) (sv : Dict ℝ) (forc : Bool)
    (m : Option String) (hm : m = none ∨ m = some "latin") (d : Full ℝ)
    (hd : construct (some distro) (some sv) (some forc) m = .ok d) (n : ℕ) (u : ℕ → ℕ → ℝ)
    (hu : ∀ j, OneInEach n 0 1 fun i => u i j)
    (f : Option String) (pre : String) (chunk : Option ℕ) (r : Lists ℝ) (w : List (Written ℝ))
    (h : make d n u f pre chunk = .ok (r, w)) (k : String) (hk : Sampled distro sv forc k)
    (c : Component) (hc : IsHome k c) :
    ∃ lo hi, Dict.get? distro k = some [lo, hi] ∧ ∃ x : ℕ → ℝ,
      (allConfigs r).map (fun cfg => Dict.get? (setOf cfg.sets c) k)
        = (List.range n).map (fun i => some (x i)) ∧
      OneInEach n lo hi x ∧ ∀ i < n, lo ≤ x i ∧ x i ≤ hi := by
  obtain ⟨hlen, col, -, hval⟩ := C87_latin distro hw sv forc m hm d hd n u f pre chunk r w h
  obtain ⟨lo, hi, hg, hlt, hv⟩ := hval k hk
  refine ⟨lo, hi, hg, fun i => lo + u i (col k) * (hi - lo), ?_, ?_⟩
  · apply List.ext_getElem
    · simp [hlen]
    · intro i h1 h2
      simp only [List.length_map] at h1
      simp only [List.getElem_map, List.getElem_range]
      exact (hv i _ (List.getElem?_eq_getElem h1) c).1 hc
  · obtain ⟨part, hpart⟩ := hu (col k)
    have hd0 : (0 : ℝ) ≤ hi - lo := by linarith
    have hin : ∀ i : Fin n, lo + (part i : ℕ) * ((hi - lo) / n) ≤ lo + u i (col k) * (hi - lo) ∧
        lo + u i (col k) * (hi - lo) ≤ lo + ((part i : ℕ) + 1) * ((hi - lo) / n) := by
      intro i
      obtain ⟨h1, h2⟩ := hpart i
      have := mul_le_mul_of_nonneg_right h1 hd0
      have := mul_le_mul_of_nonneg_right h2 hd0
      constructor
      · calc lo + (part i : ℕ) * ((hi - lo) / n)
            = lo + (0 + (part i : ℕ) * ((1 - 0) / n)) * (hi - lo) := by ring
          _ ≤ _ := by linarith
      · calc lo + u i (col k) * (hi - lo)
            ≤ lo + (0 + ((part i : ℕ) + 1) * ((1 - 0) / n)) * (hi - lo) := by linarith
          _ = _ := by ring
    refine ⟨⟨part, hin⟩, fun i hi' => ?_⟩
    obtain ⟨h1, h2⟩ := hin ⟨i, hi'⟩
    have hn : (0 : ℝ) < n := by exact_mod_cast (by omega : 0 < n)
    have hp : ((part ⟨i, hi'⟩ : ℕ) : ℝ) + 1 ≤ n := by exact_mod_cast (part ⟨i, hi'⟩).2
    have hq : 0 ≤ (hi - lo) / n := div_nonneg hd0 hn.le
    constructor
    · have : (0 : ℝ) ≤ (part ⟨i, hi'⟩ : ℕ) * ((hi - lo) / n) := mul_nonneg (Nat.cast_nonneg _) hq
      exact le_trans (by linarith) h1
    · have := mul_le_mul_of_nonneg_right hp hq
      have e : (n : ℝ) * ((hi - lo) / n) = hi - lo := by field_simp
      exact le_trans h2 (by linarith)

/-- C87: exactly which distributions can be sampled with the Latin method: at least one sample, at
least one sampled parameter, and for every sampled parameter two increasing bounds. -/
theorem C87_accepted_iff (distro : Dict (List ℝ)) (hw : Dict.WF distro) (sv : Dict ℝ) (forc : Bool)
    (m : Option String) (hm : m = none ∨ m = some "latin") (n : ℕ) (u : ℕ → ℕ → ℝ)
    (f : Option String) (pre : String) (chunk : Option ℕ) (hc : chunk ≠ some 0) :
    (∃ d r w, construct (some distro) (some sv) (some forc) m = .ok d ∧
        make d n u f pre chunk = .ok (r, w)) ↔
      0 < n ∧ (∃ k, Sampled distro sv forc k) ∧
      ∀ k, Sampled distro sv forc k → ∃ lo hi, Dict.get? distro k = some [lo, hi] ∧ lo < hi := by
  constructor
  · rintro ⟨d, r, w, hd, h⟩
    obtain ⟨-, col, -, hval⟩ := C87_latin distro hw sv forc m hm d hd n u f pre chunk r w h
    obtain ⟨e1, e2, e3⟩ := distribution_made hd
    have hmeth : d.method = "latin" := by rcases hm with rfl | rfl <;> simpa using e2
    unfold make at h
    rw [if_pos hmeth] at h
    unfold scaleLatin at h
    by_cases h0 : n = 0 ∨ d.prior = []
    · rw [if_pos h0, bind_error] at h; cases h
    push Not at h0
    refine ⟨Nat.pos_of_ne_zero h0.1, ?_, fun k hk => ?_⟩
    · have hl := (setPrior_get e3).1
      have : (init forc (Dict.keys distro) sv).ordering ≠ [] := fun e => by
        rw [e] at hl
        exact h0.2 (List.length_eq_zero_iff.1 hl)
      obtain ⟨k, hk⟩ := List.exists_mem_of_ne_nil _ this
      exact ⟨k, mem_ordering.1 hk⟩
    · obtain ⟨lo, hi, h1, h2, -⟩ := hval k hk
      exact ⟨lo, hi, h1, h2⟩
  · rintro ⟨hn, ⟨k0, hk0⟩, hb⟩
    obtain ⟨prior, hp⟩ := setPrior_works (o := (init forc (Dict.keys distro) sv).ordering)
      (ds := distro) (fun k hk => by
        obtain ⟨lo, hi, h1, h2⟩ := hb k (mem_ordering.1 hk)
        exact ⟨_, _, h1, rfl⟩)
    have hlen := (setPrior_get hp).1
    have hd : construct (some distro) (some sv) (some forc) m
        = .ok ⟨init forc (Dict.keys distro) sv, m.getD "latin", prior⟩ := by
      unfold construct
      simp only [Option.getD_some]
      rw [hp, bind_ok, pure_ok]
    have hmeth : m.getD "latin" = "latin" := by rcases hm with rfl | rfl <;> rfl
    have hall : prior.all (fun b => decide (b.1 < b.2)) = true := by
      rw [List.all_eq_true]
      intro b hbm
      obtain ⟨j, hj⟩ := List.mem_iff_getElem?.1 hbm
      have hj2 : j < (init forc (Dict.keys distro) sv).ordering.length := by
        have := (List.getElem?_eq_some_iff.1 hj).1; omega
      obtain ⟨l, b', h1, h2, h3⟩ := (setPrior_get hp).2 j _ (List.getElem?_eq_getElem hj2)
      obtain ⟨lo, hi, h4, h5⟩ := hb _ (mem_ordering.1 (List.getElem_mem hj2))
      rw [h4, Option.some.injEq] at h1
      subst h1
      simp only [bounds, Except.ok.injEq] at h2
      rw [hj, Option.some.injEq] at h3
      subst h2
      subst h3
      simpa using h5
    have hne : ¬ (n = 0 ∨ prior = []) := by
      rintro (h | h)
      · omega
      · rw [h] at hlen
        have : (init forc (Dict.keys distro) sv).ordering = [] :=
          List.length_eq_zero_iff.1 hlen.symm
        have := mem_ordering.2 hk0
        simp_all [init]
    obtain ⟨r, w, hr, -⟩ := C44_partition (init forc (Dict.keys distro) sv)
      ((List.range n).map (latinValue prior u)) f pre chunk hc
    refine ⟨_, r, w, hd, ?_⟩
    unfold make
    simp only [hmeth, if_true]
    unfold scaleLatin
    rw [if_neg hne, if_pos hall, bind_ok]
    simpa using hr

/-! ## Gaussian sampling -/

/-- C87: with any other method every configuration has every sampled parameter, in the set it belongs
to and in no other, `z` standard deviations from the middle of its own bounds, where `z` is the draw
and the bounds are one standard deviation from the middle; different parameters use different
draws. -/
theorem C87_gaussian (distro : Dict (List ℝ)) (hw : Dict.WF distro) (sv : Dict ℝ) (forc : Bool)
    (s : String) (hs : s ≠ "latin") (d : Full ℝ)
    (hd : construct (some distro) (some sv) (some forc) (some s) = .ok d) (n : ℕ) (z : ℕ → ℕ → ℝ)
    (f : Option String) (pre : String) (chunk : Option ℕ) (r : Lists ℝ) (w : List (Written ℝ))
    (h : make d n z f pre chunk = .ok (r, w)) :
    (allConfigs r).length = n ∧
    ∃ col : String → ℕ,
      (∀ k k', Sampled distro sv forc k → Sampled distro sv forc k' → col k = col k' → k = k') ∧
      ∀ k, Sampled distro sv forc k → ∃ lo hi,
        (Dict.get? distro k = some [lo, hi] ∨ Dict.get? distro k = some [lo] ∧ hi = lo) ∧ lo ≤ hi ∧
        ∃ mid sd : ℝ, lo = mid - sd ∧ hi = mid + sd ∧
        ∀ (i : ℕ) (cfg : Config ℝ), (allConfigs r)[i]? = some cfg → ∀ c : Component,
          (IsHome k c → Dict.get? (setOf cfg.sets c) k = some (mid + z i (col k) * sd)) ∧
          (¬ IsHome k c → Dict.get? (setOf cfg.sets c) k = none) := by
  obtain ⟨e1, e2, e3⟩ := distribution_made hd
  have hmeth : d.method ≠ "latin" := by rw [e2]; simpa using hs
  unfold make at h
  rw [if_neg hmeth] at h
  unfold gaussian at h
  by_cases hany : d.prior.any (fun b => decide (b.2 - (b.1 + b.2) / 2.0 < 0.0)) = true
  · rw [if_pos hany, bind_error] at h; cases h
  rw [if_neg hany, bind_ok] at h
  obtain ⟨hlen, hrows⟩ := configs_rows h
  obtain ⟨col, hcol, hinj⟩ := columns forc distro sv
  refine ⟨hlen, col, hinj, fun k hk => ?_⟩
  obtain ⟨-, hget⟩ := setPrior_get e3
  obtain ⟨l, b, hl, hb, hp⟩ := hget _ _ (hcol k hk)
  have h2 : (2.0 : ℝ) = 2 := by norm_num
  have hle : b.1 ≤ b.2 := by
    by_contra hlt
    apply hany
    rw [List.any_eq_true]
    refine ⟨b, List.mem_of_getElem? hp, ?_⟩
    have h0 : (0.0 : ℝ) = 0 := by norm_num
    rw [decide_eq_true_eq, h2, h0]
    push Not at hlt
    linarith
  have hlist : l = [b.1, b.2] ∨ l = [b.1] ∧ b.2 = b.1 := by
    match l, hb with
    | [x, y], hb => simp only [bounds, Except.ok.injEq] at hb; subst hb; exact .inl rfl
    | [x], hb => simp only [bounds, Except.ok.injEq] at hb; subst hb; exact .inr ⟨rfl, rfl⟩
    | [], hb => cases hb
    | _ :: _ :: _ :: _, hb => cases hb
  refine ⟨b.1, b.2, ?_, hle, (b.1 + b.2) / 2, (b.2 - b.1) / 2, by ring, by ring,
    fun i cfg hi c => ?_⟩
  · rcases hlist with rfl | ⟨rfl, e⟩
    · exact .inl hl
    · exact .inr ⟨hl, e⟩
  rw [hrows i cfg hi, e1]
  have := C45_sampled forc (Dict.keys distro) hw sv
    (gaussianValue d.prior z i) (col k) k (hcol k hk) c
  have e : gaussianValue d.prior z i (col k)
      = (b.1 + b.2) / 2 + z i (col k) * ((b.2 - b.1) / 2) := by
    unfold gaussianValue
    rw [hp]
    simp only [h2]
    ring
  rwa [e] at this

/-- C87: exactly which distributions can be sampled with another method: every sampled parameter has
two bounds in order, or one. -/
theorem C87_gaussian_accepted_iff (distro : Dict (List ℝ)) (hw : Dict.WF distro) (sv : Dict ℝ)
    (forc : Bool) (s : String) (hs : s ≠ "latin") (n : ℕ) (z : ℕ → ℕ → ℝ) (f : Option String)
    (pre : String) (chunk : Option ℕ) (hc : chunk ≠ some 0) :
    (∃ d r w, construct (some distro) (some sv) (some forc) (some s) = .ok d ∧
        make d n z f pre chunk = .ok (r, w)) ↔
      ∀ k, Sampled distro sv forc k → ∃ lo hi,
        (Dict.get? distro k = some [lo, hi] ∨ Dict.get? distro k = some [lo] ∧ hi = lo) ∧ lo ≤ hi := by
  constructor
  · rintro ⟨d, r, w, hd, h⟩ k hk
    obtain ⟨-, col, -, hval⟩ := C87_gaussian distro hw sv forc s hs d hd n z f pre chunk r w h
    obtain ⟨lo, hi, h1, h2, -⟩ := hval k hk
    exact ⟨lo, hi, h1, h2⟩
  · intro hb
    have hb' : ∀ k, Sampled distro sv forc k → ∃ l b, Dict.get? distro k = some l ∧
        bounds l = .ok b ∧ b.1 ≤ b.2 := by
      intro k hk
      obtain ⟨lo, hi, h1 | ⟨h1, rfl⟩, h2⟩ := hb k hk
      · exact ⟨_, (lo, hi), h1, rfl, h2⟩
      · exact ⟨_, (hi, hi), h1, rfl, h2⟩
    obtain ⟨prior, hp⟩ := setPrior_works (o := (init forc (Dict.keys distro) sv).ordering)
      (ds := distro) (fun k hk => by
        obtain ⟨l, b, h1, h2, -⟩ := hb' k (mem_ordering.1 hk)
        exact ⟨l, b, h1, h2⟩)
    have hd : construct (some distro) (some sv) (some forc) (some s)
        = .ok ⟨init forc (Dict.keys distro) sv, s, prior⟩ := by
      unfold construct
      simp only [Option.getD_some]
      rw [hp, bind_ok, pure_ok]
    have hany : ¬ prior.any (fun b => decide (b.2 - (b.1 + b.2) / 2.0 < 0.0)) = true := by
      rw [List.any_eq_true]
      rintro ⟨b, hbm, hlt⟩
      obtain ⟨j, hj⟩ := List.mem_iff_getElem?.1 hbm
      have hj2 : j < (init forc (Dict.keys distro) sv).ordering.length := by
        have := (List.getElem?_eq_some_iff.1 hj).1
        have := (setPrior_get hp).1
        omega
      obtain ⟨l, b', h1, h2, h3⟩ := (setPrior_get hp).2 j _ (List.getElem?_eq_getElem hj2)
      obtain ⟨l', b'', h4, h5, h6⟩ := hb' _ (mem_ordering.1 (List.getElem_mem hj2))
      rw [h4, Option.some.injEq] at h1
      subst h1
      rw [h5, Except.ok.injEq] at h2
      subst h2
      rw [hj, Option.some.injEq] at h3
      subst h3
      have h2 : (2.0 : ℝ) = 2 := by norm_num
      have h0 : (0.0 : ℝ) = 0 := by norm_num
      rw [decide_eq_true_eq, h2, h0] at hlt
      linarith
    obtain ⟨r, w, hr, -⟩ := C44_partition (init forc (Dict.keys distro) sv)
      ((List.range n).map (gaussianValue prior z)) f pre chunk hc
    refine ⟨_, r, w, hd, ?_⟩
    unfold make
    simp only [hs, if_false]
    unfold gaussian
    rw [if_neg hany, bind_ok]
    simpa using hr

/-! ## Malformed and default distributions -/

/-- C87 fails for the documented fallback ("if the distro_array does not have correct type or
dimensions the default prior will be used"): a sampled parameter with other than one or two bounds
makes the construction fail, the default prior is not used. -/
theorem C87_fallback_false (distro : Dict (List ℝ)) (sv : Dict ℝ) (forc : Bool) (m : Option String)
    (k : String) (hk : Sampled distro sv forc k) (l : List ℝ) (hl : Dict.get? distro k = some l)
    (h1 : l.length ≠ 1) (h2 : l.length ≠ 2) (d : Full ℝ) :
    construct (some distro) (some sv) (some forc) m ≠ .ok d := by
  intro hd
  obtain ⟨-, -, e3⟩ := distribution_made hd
  obtain ⟨j, hj⟩ := List.mem_iff_getElem?.1 (mem_ordering.2 hk)
  obtain ⟨l', b, h3, h4, -⟩ := (setPrior_get e3).2 j k hj
  rw [hl, Option.some.injEq] at h3
  subst h3
  match l, h4, h1, h2 with
  | [x, y], _, _, h2 => exact h2 rfl
  | [x], _, h1, _ => exact h1 rfl
  | [], h, _, _ => cases h
  | _ :: _ :: _ :: _, h, _, _ => cases h

theorem priorFlat_increasing : ∀ p ∈ (priorFlat : Dict (List ℝ)), ∃ lo hi, p.2 = [lo, hi] ∧ lo < hi := by
  simp only [priorFlat, List.forall_mem_cons]
  repeat' apply And.intro
  all_goals first
    | exact ⟨_, _, rfl, by norm_num⟩
    | simp

/-- C87: the default distribution can be sampled, for any number of configurations. -/
theorem C87_default (n : ℕ) (hn : 0 < n) (u : ℕ → ℕ → ℝ) (f : Option String) (pre : String)
    (chunk : Option ℕ) (hc : chunk ≠ some 0) :
    ∃ d r w, construct none none none none = .ok d ∧ make d n u f pre chunk = .ok (r, w) := by
  have hw : Dict.WF (priorFlat : Dict (List ℝ)) := by
    simp only [Dict.WF, Dict.keys, priorFlat, List.map_cons, List.map_nil]
    decide
  refine (C87_accepted_iff priorFlat hw setValuesDefault false none (.inl rfl) n u f pre chunk hc).2
    ⟨hn, ⟨"rlamdo", ?_, ?_, by simp⟩, fun k hk => ?_⟩
  · simp [Dict.keys, priorFlat]
  · simp [Dict.keys, setValuesDefault]
  · obtain ⟨l, hl⟩ := (Dict.get?_isSome_iff _ _).2 hk.1
    obtain ⟨lo, hi, e, hlt⟩ := priorFlat_increasing (k, l) (Dict.mem_of_get? hl)
    simp only at e
    subst e
    exact ⟨lo, hi, hl, hlt⟩

/-- C87: so it can with another method. -/
theorem C87_gaussian_default (s : String) (hs : s ≠ "latin") (n : ℕ) (z : ℕ → ℕ → ℝ)
    (f : Option String) (pre : String) (chunk : Option ℕ) (hc : chunk ≠ some 0) :
    ∃ d r w, construct none none none (some s) = .ok d ∧ make d n z f pre chunk = .ok (r, w) := by
  have hw : Dict.WF (priorFlat : Dict (List ℝ)) := by
    simp only [Dict.WF, Dict.keys, priorFlat, List.map_cons, List.map_nil]
    decide
  refine (C87_gaussian_accepted_iff priorFlat hw setValuesDefault false s hs n z f pre chunk hc).2
    fun k hk => ?_
  obtain ⟨l, hl⟩ := (Dict.get?_isSome_iff _ _).2 hk.1
  obtain ⟨lo, hi, e, hlt⟩ := priorFlat_increasing (k, l) (Dict.mem_of_get? hl)
  simp only at e
  subst e
  exact ⟨lo, hi, .inl hl, hlt.le⟩

/-! ## The hypotheses are met -/

/-- A sampler of two samples: column 0 is `3/4, 1/4`, every other column `1/4, 3/4`. -/
noncomputable def twoDraws (i j : ℕ) : ℝ := if (i = 0) = (j = 0) then 3 / 4 else 1 / 4

theorem twoDraws_latin (j : ℕ) : OneInEach 2 0 1 fun i => twoDraws i j := by
  by_cases h : j = 0
  · refine ⟨Equiv.swap 0 1, fun i => ?_⟩
    fin_cases i <;> simp [twoDraws, h] <;> norm_num
  · refine ⟨Equiv.refl _, fun i => ?_⟩
    fin_cases i <;> simp [twoDraws, h] <;> norm_num

/-- The default distribution, two samples of a Latin hypercube in chunks of one: `beto` is sampled
in its own interval. -/
example : ∃ d r w, construct none none none none = .ok d ∧
    make d 2 twoDraws none "" (some 1) = .ok (r, w) ∧
    ∃ x : ℕ → ℝ, (allConfigs r).map (fun cfg => Dict.get? (setOf cfg.sets .thermal) "beto")
        = [some (x 0), some (x 1)] ∧ OneInEach 2 0 7 x := by
  obtain ⟨d, r, w, hd, h⟩ := C87_default 2 (by norm_num) twoDraws none "" (some 1) (by simp)
  have hw : Dict.WF (priorFlat : Dict (List ℝ)) := by
    simp only [Dict.WF, Dict.keys, priorFlat, List.map_cons, List.map_nil]
    decide
  obtain ⟨lo, hi, hg, x, hx, h1, -⟩ := C87_one_in_each priorFlat hw setValuesDefault false none
    (.inl rfl) d hd 2 twoDraws twoDraws_latin none "" (some 1) r w h "beto"
    ⟨by simp [Dict.keys, priorFlat], by simp [Dict.keys, setValuesDefault], by simp⟩ .thermal
    (.thermal (by decide))
  have e : Dict.get? (priorFlat : Dict (List ℝ)) "beto" = some [0.0, 7.0] := rfl
  rw [e, Option.some.injEq] at hg
  obtain ⟨rfl, rfl⟩ : lo = 0 ∧ hi = 7 := by
    simp only [List.cons.injEq] at hg
    exact ⟨by rw [← hg.1]; norm_num, by rw [← hg.2.1]; norm_num⟩
  exact ⟨d, r, w, hd, h, x, by simpa [List.range_succ] using hx, h1⟩

/-- A Gaussian distribution of one parameter with bounds `1` and `3`: a draw of `-1` gives `1`. -/
example : ∃ (d : Full ℝ) (r : Lists ℝ) (w : List (Written ℝ)),
    construct (some [("qo3", [1, 3])]) (some []) (some false) (some "gaussian") = .ok d ∧
    make d 1 (fun _ _ => -1) none "" none = .ok (r, w) := by
  obtain ⟨r, w, hr, -⟩ := C44_partition (init false ["qo3"] [])
    ((List.range 1).map (gaussianValue [((1 : ℝ), (3 : ℝ))] fun _ _ => -1)) none "" none (by simp)
  refine ⟨⟨init false ["qo3"] [], "gaussian", [(1, 3)]⟩, r, w, ?_, ?_⟩
  · have : (init false ["qo3"] ([] : Dict ℝ)).ordering = ["qo3"] := by
      simp [init, ordering, Dict.has, Dict.get?_nil]
    unfold construct
    simp only [Option.getD_some, Dict.keys, List.map_cons, List.map_nil]
    rw [this]
    rfl
  · unfold make gaussian
    rw [if_neg (by decide), if_neg (by simp; norm_num), bind_ok]
    exact hr

/-- A malformed distribution: three bounds. -/
example (d : Full ℝ) : construct (some [("qo3", [1, 2, 3])]) (some []) (some false) none ≠ .ok d :=
  C87_fallback_false _ _ _ _ "qo3" ⟨by simp [Dict.keys], by simp [Dict.keys], by simp⟩ [1, 2, 3] rfl
    (by simp) (by simp) d

end Verif.Props
