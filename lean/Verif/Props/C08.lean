import Verif.Props.C59

/-!
# C08, what the aerosol fraction is

The range and the counterexample for perturbed years are in `Verif/Props/C06_C08.lean`.
-/

namespace Verif.Props
open Verif.Py Verif.Model Verif.Model.Handler Verif.Spec

section
variable {κ : Type}

open Classical in
/-- C08 (partial: years in which no component of the run is perturbed): the aerosol fraction handed to
the thermal model is the part of the aerosols in the sum of the magnitudes of all components computed
in the run (zero if all of them are zero). Missing: perturbed years. -/
theorem C08_fraction_partial {h h' : Handler ℝ κ} {yr y0 : ℤ} {luc sun : ℝ} {r : ForcResult ℝ}
    (hc : conc2forc h yr luc sun = .ok (r, h')) (hy0 : h.y0 = .ok y0) (hk : h.forcKeys.Nodup) (hp : NoPert h yr) :
    let comps := h.forcKeys.filter (fun k => k ≠ "Total_forcing")
    let size : String → ℝ := fun k => |h'.forc k (yr - y0).toNat|
    ((comps.map size).sum = 0 → r.wAero = 0) ∧
    ((comps.map size).sum ≠ 0 →
      r.wAero = ((comps.filter (fun k => IsAerosol k)).map size).sum / (comps.map size).sum) := by
  obtain ⟨y0', a0, a1, v, a3, e0, hle, hlt, h0, hi, h1, hv, h3, he⟩ := conc2forc_inv hc
  rw [hy0, Except.ok.injEq] at e0
  subst e0
  obtain ⟨i', hi', -, -, -, -, -, t3, -, -⟩ := threeMain_spec h0
  obtain ⟨-, -, -, l4⟩ := forcLoop_spec _ _ _ hk h1
  rw [addPert_id hp] at h3
  have h3' : a3.aero = a1.aero ∧ a3.forc = a1.forc := by
    unfold applyJustOne at h3
    split at h3
    · rw [Except.ok.injEq] at h3; subst h3; exact ⟨rfl, rfl⟩
    · rw [bind_eq_ok] at h3
      obtain ⟨k, _, h3⟩ := h3
      rw [pure_ok, Except.ok.injEq] at h3
      subst h3
      exact ⟨rfl, rfl⟩
  unfold finishForc at he
  simp only [Prod.mk.injEq] at he
  obtain ⟨hr, hh'⟩ := he
  rw [t3, zero_add] at l4
  intro comps size
  have hsize : ∀ k, k ≠ "Total_forcing" → size k = |a1.forc k (yr - y0).toNat| := by
    intro k hk'
    simp only [size, hh', setForc, hk', false_and, if_false, h3'.2]
  have hS : fsum ((h.forcKeys.filter (fun k => k ≠ "Total_forcing")).map
    (fun k => MathFn.abs (setForc a3.forc "Total_forcing" (yr - y0).toNat a3.tot k
      (yr - y0).toNat))) = (comps.map size).sum := by
    rw [fsum_eq_sum]
    congr 1
    apply List.map_congr_left
    intro k _
    simp only [size, hh']
    rfl
  have hA : a3.aero = ((comps.filter (fun k => IsAerosol k)).map size).sum := by
    rw [h3'.1, l4]
    have hset : (worked h.forcKeys).filter (fun t => isAerosol t) = comps.filter (fun k => IsAerosol k) := by
      simp only [comps, worked, List.filter_filter]
      apply List.filter_congr
      intro k _
      have hm : isAerosol k = true → k ∉ ["CO2", "N2O", "CH4"] ∧ k ≠ "Total_forcing" := by
        intro hk'
        constructor
        · intro hm
          have : ∀ t ∈ ["CO2", "N2O", "CH4"], isAerosol t = false := by decide +kernel
          rw [this k hm] at hk'
          cases hk'
        · rintro rfl
          rw [not_isAerosol_total] at hk'
          cases hk'
      by_cases ha : isAerosol k = true
      · simp only [ha, Bool.true_and, (isAerosol_iff k).1 ha, decide_true, Bool.and_true]
        simp [hm ha]
      · have ha' : ¬ IsAerosol k := fun h => ha ((isAerosol_iff k).2 h)
        simp [ha, ha']
    rw [hset]
    congr 1
    apply List.map_congr_left
    intro k hk'
    have : k ≠ "Total_forcing" := by
      have := (List.mem_filter.1 (List.mem_filter.1 hk').1).2
      simpa using this
    rw [hsize k this]
  rw [hS, hA] at hr
  have hnn : 0 ≤ (comps.map size).sum := by
    apply List.sum_nonneg
    intro x hx
    obtain ⟨k, _, rfl⟩ := List.mem_map.1 hx
    exact abs_nonneg _
  rw [hr]
  simp only
  constructor
  · intro h
    rw [h]
    norm_num
  · intro h
    rw [if_pos]
    norm_num
    exact lt_of_le_of_ne hnn (Ne.symm h)

end

/-- The hypotheses are met by a year with sulphate, where the fraction is one. -/
example : ∃ r h', conc2forc (exHandler none) 2001 0 0 = .ok (r, h') ∧ (exHandler none).y0 = .ok 2000 ∧
    (exHandler none).forcKeys.Nodup ∧ NoPert (exHandler none) 2001 ∧ r.wAero = 1 ∧ IsAerosol "SO2" := by
  refine ⟨_, _, exForc none 0, rfl, by simp [exHandler], ?_, ?_, ?_⟩
  · intro rows h; simp [exHandler] at h
  · simp [addPert, exHandler, exLoop, setForc, fsum]
    norm_num
  · rw [← isAerosol_iff]; decide +kernel

end Verif.Props
