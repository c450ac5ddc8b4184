import Verif.Model.Handler
import Verif.Lemmas.Except
import Verif.Lemmas.Perturb
import Verif.Lemmas.Dict
import Verif.Py.RealInst
import Verif.Spec.Perturb
import Mathlib.Algebra.BigOperators.Group.Finset.Basic

/-! # Lemmas about the handler model -/

namespace Verif.Model.Handler
open Verif.Py Verif.Model

theorem foldlM_cons_ok {ε α β : Type} {f : β → α → Except ε β} {a : α} {l : List α} {b c : β} :
    (a :: l).foldlM f b = .ok c ↔ ∃ b', f b a = .ok b' ∧ l.foldlM f b' = .ok c := by
  rw [List.foldlM_cons, bind_eq_ok]

theorem foldlM_nil_ok {ε α β : Type} {f : β → α → Except ε β} {b c : β} :
    ([] : List α).foldlM f b = .ok c ↔ c = b := by
  rw [List.foldlM_nil, pure_ok, Except.ok.injEq, eq_comm]

/-- An invariant of a monadic fold. -/
theorem foldlM_inv {ε α β : Type} {f : β → α → Except ε β} (P : β → Prop)
    (hstep : ∀ b a b', P b → f b a = .ok b' → P b') :
    ∀ (l : List α) (b c : β), P b → l.foldlM f b = .ok c → P c
  | [], b, c, hb, h => by rw [foldlM_nil_ok] at h; rw [h]; exact hb
  | a :: l, b, c, hb, h => by
    obtain ⟨b', h1, h2⟩ := foldlM_cons_ok.1 h
    exact foldlM_inv P hstep l b' c (hstep _ _ _ hb h1) h2

theorem not_isAerosol_main {t : String} (h : t ∈ ["CO2", "N2O", "CH4"]) : isAerosol t = false := by
  simp only [List.mem_cons, List.not_mem_nil, or_false] at h
  rcases h with rfl | rfl | rfl <;> decide +kernel

theorem not_isAerosol_total : isAerosol "Total_forcing" = false := by decide +kernel

section real
variable {κ : Type}

/-- The list of keys the loop works on. -/
def worked (ks : List String) : List String := ks.filter (fun t => t ∉ ["CO2", "N2O", "CH4"])

theorem forcStep_main {h : Handler ℝ κ} {yr : ℤ} {luc : ℝ} {i : ℕ} {a : Acc ℝ} {t : String}
    (ht : t ∈ ["CO2", "N2O", "CH4"]) : forcStep h yr luc i a t = .ok a := by
  unfold forcStep; rw [if_pos ht]

theorem forcStep_other {h : Handler ℝ κ} {yr : ℤ} {luc : ℝ} {i : ℕ} {a a' : Acc ℝ} {t : String}
    (ht : t ∉ ["CO2", "N2O", "CH4"]) (hs : forcStep h yr luc i a t = .ok a') :
    ∃ q c, tracerForcing h yr luc a i t = .ok (q, c) ∧
      a'.tot = a.tot + q ∧ a'.nh + a'.sh = a.nh + a.sh + 2 * q ∧
      a'.aero = (if isAerosol t then a.aero + |q| else a.aero) ∧
      a'.forc = setForc a.forc t i q ∧ a'.conc = c := by
  unfold forcStep at hs
  rw [if_neg ht, bind_eq_ok] at hs
  obtain ⟨⟨q, c⟩, h1, h2⟩ := hs
  rw [pure_ok, Except.ok.injEq] at h2
  refine ⟨q, c, h1, ?_⟩
  subst h2
  rw [hemisphericForcing_eq]
  refine ⟨rfl, by ring, by simp, rfl, rfl⟩

/-- What the loop over the components leaves behind. -/
theorem forcLoop_spec {h : Handler ℝ κ} {yr : ℤ} {luc : ℝ} {i : ℕ} :
    ∀ (ks : List String) (a a' : Acc ℝ), ks.Nodup → ks.foldlM (forcStep h yr luc i) a = .ok a' →
      (∀ t j, (t ∉ worked ks ∨ j ≠ i) → a'.forc t j = a.forc t j) ∧
      a'.tot = a.tot + ((worked ks).map (fun t => a'.forc t i)).sum ∧
      a'.nh + a'.sh = a.nh + a.sh + 2 * ((worked ks).map (fun t => a'.forc t i)).sum ∧
      a'.aero = a.aero + (((worked ks).filter (fun t => isAerosol t)).map
        (fun t => |a'.forc t i|)).sum
  | [], a, a', _, hf => by
    rw [foldlM_nil_ok] at hf
    subst hf
    simp [worked]
  | t :: ks, a, a', hnd, hf => by
    obtain ⟨b, h1, h2⟩ := foldlM_cons_ok.1 hf
    obtain ⟨hnt, hnd'⟩ := List.nodup_cons.1 hnd
    obtain ⟨i1, i2, i3, i4⟩ := forcLoop_spec ks b a' hnd' h2
    by_cases ht : t ∈ ["CO2", "N2O", "CH4"]
    · rw [forcStep_main ht, Except.ok.injEq] at h1
      subst h1
      have hw : worked (t :: ks) = worked ks := by
        unfold worked; rw [List.filter_cons_of_neg]; rw [decide_eq_true_eq]; exact fun h => h ht
      rw [hw]
      exact ⟨i1, i2, i3, i4⟩
    · obtain ⟨q, c, _, e1, e2, e3, e4, _⟩ := forcStep_other ht h1
      have hw : worked (t :: ks) = t :: worked ks := by
        unfold worked; rw [List.filter_cons_of_pos]; rw [decide_eq_true_eq]; exact ht
      have hnw : t ∉ worked ks := fun hm => hnt (List.mem_filter.1 hm).1
      have hq : a'.forc t i = q := by
        rw [i1 t i (Or.inl hnw), e4]; simp [setForc]
      rw [hw]
      refine ⟨?_, ?_, ?_, ?_⟩
      · intro t' j hor
        have h3 : t' ∉ worked ks ∨ j ≠ i := by
          rcases hor with h | h
          · exact Or.inl (fun hm => h (List.mem_cons_of_mem _ hm))
          · exact Or.inr h
        rw [i1 t' j h3, e4, setForc, if_neg]
        rintro ⟨rfl, rfl⟩
        rcases hor with h | h
        · exact h List.mem_cons_self
        · exact h rfl
      · rw [i2, e1, List.map_cons, List.sum_cons, hq]; ring
      · rw [i3, e2, List.map_cons, List.sum_cons, hq]; ring
      · rw [i4, e3]
        by_cases hA : isAerosol t = true
        · rw [if_pos hA, List.filter_cons_of_pos (by simpa using hA), List.map_cons, List.sum_cons,
            hq]
          ring
        · rw [if_neg hA, List.filter_cons_of_neg (by simpa using hA)]

/-- `calculate_forc_three_main`: only the three entries of the year change. -/
theorem threeMain_spec {h : Handler ℝ κ} {yr : ℤ} {a : Acc ℝ} (ht : threeMain h yr = .ok a) :
    ∃ i, h.index yr = .ok i ∧ "CO2" ∈ h.forcKeys ∧ "CH4" ∈ h.forcKeys ∧ "N2O" ∈ h.forcKeys ∧
      a.tot = a.forc "CO2" i + a.forc "N2O" i + a.forc "CH4" i ∧
      a.nh + a.sh = 2 * a.tot ∧ a.aero = 0 ∧ a.conc = h.conc ∧
      ∀ t j, (t ∉ ["CO2", "N2O", "CH4"] ∨ j ≠ i) → a.forc t j = h.forc t j := by
  unfold threeMain at ht
  simp only [bind_eq_ok] at ht
  obtain ⟨y0, hy0, n0, _, n, _, c0, _, c, _, m0, _, m, _, gc, _, gn, _, gm, _, i, hi, u1, k1, u2, k2,
    u3, k3, ha⟩ := ht
  rw [pure_ok, Except.ok.injEq] at ha
  have hk : ∀ (t : String) (u : Unit), needKey h.forcKeys t = .ok u → t ∈ h.forcKeys := by
    intro t u hh
    unfold needKey at hh
    by_contra hc
    rw [if_neg hc] at hh
    cases hh
  refine ⟨i, hi, hk _ _ k1, hk _ _ k2, hk _ _ k3, ?_, ?_, ?_, ?_, ?_⟩
  · subst ha; simp [setForc]
  · subst ha
    simp only [hemisphericForcing_eq]
    norm_num
    ring
  · subst ha; norm_num
  · subst ha; rfl
  · subst ha
    intro t j hor
    simp only [setForc]
    rcases hor with hm | hj
    · simp only [List.mem_cons, List.not_mem_nil, or_false, not_or] at hm
      simp [hm.1, hm.2.1, hm.2.2]
    · simp [hj]

theorem index_spec {F : Type} {h : Handler F κ} {yr : ℤ} {i : ℕ} (hi : h.index yr = .ok i) :
    ∃ y0, h.y0 = .ok y0 ∧ y0 ≤ yr ∧ i = (yr - y0).toNat ∧ i < h.years.length := by
  unfold Handler.index at hi
  rw [bind_eq_ok] at hi
  obtain ⟨y0, h1, h2⟩ := hi
  refine ⟨y0, h1, ?_⟩
  split at h2
  · cases h2
  · split at h2
    · cases h2
    · rw [Except.ok.injEq] at h2
      omega

/-- A sum over keys with the three main gases singled out. -/
theorem sum_split_main (ks : List String) (hnd : ks.Nodup) (h1 : "CO2" ∈ ks) (h2 : "N2O" ∈ ks)
    (h3 : "CH4" ∈ ks) (f : String → ℝ) :
    (ks.map f).sum = f "CO2" + f "N2O" + f "CH4" + ((worked ks).map f).sum := by
  have e : ∀ l : List String, l.Nodup → (l.map f).sum = ∑ x ∈ l.toFinset, f x := fun l hl =>
    (List.sum_toFinset f hl).symm
  rw [e ks hnd, e (worked ks) (hnd.filter _)]
  have hs : ks.toFinset = insert "CO2" (insert "N2O" (insert "CH4" (worked ks).toFinset)) := by
    ext x
    simp only [List.mem_toFinset, Finset.mem_insert, worked, List.mem_filter, List.mem_cons,
      List.not_mem_nil, or_false, decide_eq_true_eq]
    constructor
    · intro hx; tauto
    · rintro (rfl | rfl | rfl | hx)
      · exact h1
      · exact h2
      · exact h3
      · exact hx.1
  rw [hs, Finset.sum_insert, Finset.sum_insert, Finset.sum_insert]
  · ring
  all_goals simp [worked]

end real
end Verif.Model.Handler
