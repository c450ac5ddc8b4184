import Verif.Props.C13
import Verif.Props.C17
import Verif.Props.C61
import Verif.Props.C62

/-!
# C13 and C17 for whole runs: the reported methane and N2O concentrations
-/

namespace Verif.Props
open Verif.Py Verif.Py.Dict Verif.Model Verif.Model.Handler Verif.Model.Driver Verif.Spec

section
variable {κ τ : Type}

/-- The natural emissions table of a gas. -/
def naturalTable (i : Inputs ℝ) (k : String) : Frame ℝ := if k = "CH4" then i.natCh4 else i.natN2o

/-- The year's update of methane and N2O in a run, with the code's formula. -/
theorem run_update {cops : CarbonOps ℝ κ} {tops : ThermalOps ℝ τ} {d0 d d1 : Driver ℝ κ}
    {i : Inputs ℝ} {pamset carb : Option (Dict (PyVal ℝ))} {h0 g : Handler ℝ κ} {es : ℤ}
    {ps : List (RunPams ℝ)} {p : RunPams ℝ} {t : τ} (hgas : i.gas.keys.Nodup)
    (ht : RunTables i.concIn i.emis (Dict.set (Factory.checkPamset pamset) "conc_run" (.bool i.concRun))
      d0.nystart es d0.nyend)
    (hc : construct cops i pamset carb = .ok h0) (hd0 : d0.source = .handler h0)
    (ha : After cops tops d0 ps d) (hr : run cops tops d p = .ok (d1, t)) (hg : d1.source = .handler g)
    (hrun : i.concRun = false) {y : ℤ} (hy1 : es ≤ y) (hy2 : y ≤ d0.nyend) {k : String}
    (hk : k = "CH4" ∨ k = "N2O") {x : Gas ℝ} (hx : i.gas.get? k = some x) (hu : x.concUnit ≠ "-") :
    ∃ c ∈ reportConc g, ∃ c0 c1 q, c.1 = k ∧ c.2 (y - 1) = some c0 ∧ c.2 y = some c1 ∧
      (k = "N2O" → q = 1 / x.tau1) ∧ (k = "CH4" → decayRate g k c0 y = .ok q) ∧
      c1 = concUpdate x.beta (usedEmis i k y + (naturalTable i k).cell k y) q c0 := by
  have hle := ht.nonempty
  have hes : d0.nystart < es := ht.order (by rw [concRun_pam, hrun])
  obtain ⟨h, emis, tr, H, hd, hsame, htr, hreset, hH, hyr⟩ := run_years yearLaw_real ht hc hd0 ha hr hg
  obtain ⟨emis', cl, br, he, ht2, hpre, hcg, hci, hce, hcp, hcy⟩ := constructed hc ht
  obtain ⟨b, luc, sun, r, values, vn, vs, Y, hy, -⟩ := hyr y (by omega) hy2
  obtain ⟨b', luc', sun', r', values', vn', vs', Y', hy', -⟩ := hyr (y - 1) (by omega) (by omega)
  rw [show y - 1 + 1 = y by ring] at Y'
  have hsg : Same (H y) g := (Y.sameB.trans Y.sameC).trans Y.sameG
  obtain ⟨pam, kc, -, -, hHs⟩ := reset_spec hreset
  have hkeys : g.concKeys = concKeysOf h.gas h0.prec.spicy ∧ h.prec = h0.prec := by
    obtain ⟨b, luc, sun, r, values, vn, vs, Y0, -⟩ := hyr d0.nystart (le_refl _) hle
    obtain ⟨h', hd', -, kept, -⟩ := after_spec yearLaw_real hd0 ha (fun _ => True) trivial
      (fun _ _ _ _ _ _ _ => trivial) (fun _ _ _ _ _ _ => trivial)
    rw [hd] at hd'
    cases hd'
    rw [((Y0.sameB.trans Y0.sameC).trans Y0.sameG).concKeys, hHs]
    simp only
    rw [kept.prec]
    exact ⟨rfl, rfl⟩
  obtain ⟨hvg, -, hsp⟩ := mem_spicy hpre
  have hnd : g.concKeys.Nodup := by
    rw [hkeys.1, hsp]
    exact List.Nodup.filter _ (List.Nodup.filter _ hgas)
  have hkg : k ∈ i.gas.keys := (get?_isSome_iff _ _).1 ⟨x, hx⟩
  have hkc : k ∈ g.concKeys := by
    have := Y.forc
    unfold conc2forc at this
    rw [bind_eq_ok] at this
    obtain ⟨a, ha', -⟩ := this
    unfold threeMain at ha'
    simp only [bind_eq_ok] at ha'
    obtain ⟨y0, -, n0, hn0, n, -, c0, -, c, -, m0, hm0, -⟩ := ha'
    rw [Y.sameG.concKeys, Y.sameC.concKeys]
    unfold Handler.concAt at hn0 hm0
    split at hn0
    swap
    · cases hn0
    rename_i hn
    split at hm0
    swap
    · cases hm0
    rename_i hm
    rcases hk with rfl | rfl
    · exact hm
    · exact hn
  have hk2 : k ≠ "TROP_O3" ∧ k ≠ "CO2" := by rcases hk with rfl | rfl <;> decide
  -- the row of the gas table in that year
  obtain ⟨q, hq, hqx⟩ : ∃ q, (H y).gas.get? k = some q ∧
      q = { x with natEm := q.natEm } := by
    have := Y.gas k
    rw [hx] at this
    cases hq : (H y).gas.get? k with
    | none => rw [hq] at this; cases this
    | some q =>
      rw [hq, Option.map_some, Option.map_some, Option.some.injEq] at this
      refine ⟨q, rfl, ?_⟩
      unfold canon at this
      rw [if_pos hk, if_pos hk] at this
      rcases q with ⟨a1, a2, a3, a4, a5, a6, a7, a8⟩
      rcases x with ⟨b1, b2, b3, b4, b5, b6, b7, b8⟩
      simp only [Gas.mk.injEq] at this ⊢
      exact ⟨this.1, this.2.1, this.2.2.1, this.2.2.2.1, this.2.2.2.2.1, this.2.2.2.2.2.1, trivial,
        this.2.2.2.2.2.2.2⟩
  have hquns : q.concUnit ≠ "-" := by rw [hqx]; exact hu
  obtain ⟨run', hrn, ⟨hb, e⟩ | ⟨_, es', hes', ⟨hb, e⟩ | ⟨_, e⟩⟩⟩ := emi2conc_cases Y.emi
  · rw [Y.run, hrun, Except.ok.injEq, hb] at hrn
    cases hrn
  · rw [Y.before, Except.ok.injEq, hb, decide_eq_true_eq] at hes'
    omega
  have hHk : (H y).concKeys = g.concKeys := by rw [hsg.concKeys]
  obtain ⟨-, -, -, hk4, -⟩ := tracerLoop_spec _ _ _ (by rw [hHk]; exact hnd) e
  obtain ⟨q', hq', -, h2, -⟩ := hk4 k (by rw [hHk]; exact hkc)
  rw [show (addRowOfZeros (H y) y).gas = (H y).gas from rfl, hq, Option.some.injEq] at hq'
  subst hq'
  obtain ⟨cl', rate, em, c1, c2, c3, c4⟩ := h2 hquns hk2.2
  have s := same_addRowOfZeros (H y) y
  rw [concLocal_congr s (by simp [addRowOfZeros])] at c1
  rw [s.decayRate] at c2
  have hyy : ∀ z, d0.nystart ≤ z → z ≤ d0.nyend → z ∈ g.years := by
    intro z z1 z2
    rw [Y.sameG.years, Y.sameC.years, Y.sameB.years, Y.years, mem_pyRange]; omega
  have hprior := concLocal_prior c1
  obtain ⟨y0, hy0, hp1, -⟩ := hprior
  have hyns : y0 = d0.nystart := by
    unfold Handler.y0 at hy0
    rw [Y.years, pyRange_cons (by omega)] at hy0
    simpa using hy0.symm
  have hcell : em = usedEmis i k y := by
    rw [show (addRowOfZeros (H y) y).emis = (H y).emis from rfl, Y.emis] at c3
    obtain ⟨hcols, hix, hcel⟩ := perturbedEmis_spec Y.emisE
    obtain ⟨a1, a2, a3⟩ := frame_at'_eq_ok.1 c3
    rw [hix] at a2
    rw [← a3, hcel k y a2]
  have hnat : natOf (addRowOfZeros (H y) y) k q y = (naturalTable i k).cell k y := by
    unfold natOf naturalTable
    rcases hk with rfl | rfl
    · simp only [if_true, addRowOfZeros, Y.natCh4]
    · simp only [addRowOfZeros, Y.natN2o, if_true]
      rw [if_neg (by decide), if_neg (by decide)]
  refine ⟨_, reportConc_conc hkc (by rw [Y.keysG]; exact hkg), cl',
    concUpdate q.beta (em + natOf (addRowOfZeros (H y) y) k q y) rate cl', rate, rfl, ?_, ?_, ?_, ?_, ?_⟩
  · simp only
    rw [if_pos (hyy _ (by omega) (by omega)), Y'.concZ k (y - 1) (le_refl _)]
    exact hp1 (by omega)
  · simp only
    rw [if_pos (hyy _ (by omega) (by omega)), Y.concZ k y (le_refl _), conc2forc_conc Y.forc hk2.1, c4]
  · rintro rfl
    have := (decayRate_loss hq c2).1 (by decide)
    rw [this, hqx]
  · rintro rfl
    rw [hsg.decayRate]
    exact c2
  · rw [hcell, hnat]
    have : q.beta = x.beta := by rw [hqx]
    rw [this]

/-- C13 for runs: in every emission-driven run of an instance, new or after any history, and every year
from the emission start on, the reported methane and N2O concentrations are the solution after one
year of `dC/dt = (emissions + natural emissions) / beta - rate * C`, started from the concentration
reported for the year before. The rate of N2O is the inverse of its lifetime; that of methane is given
by the lifetime mode (`C17_rate`). -/
theorem C13_run {cops : CarbonOps ℝ κ} {tops : ThermalOps ℝ τ} {d0 d d1 : Driver ℝ κ}
    {i : Inputs ℝ} {pamset carb : Option (Dict (PyVal ℝ))} {h0 g : Handler ℝ κ} {es : ℤ}
    {ps : List (RunPams ℝ)} {p : RunPams ℝ} {t : τ} (hgas : i.gas.keys.Nodup)
    (ht : RunTables i.concIn i.emis (Dict.set (Factory.checkPamset pamset) "conc_run" (.bool i.concRun))
      d0.nystart es d0.nyend)
    (hc : construct cops i pamset carb = .ok h0) (hd0 : d0.source = .handler h0)
    (ha : After cops tops d0 ps d) (hr : run cops tops d p = .ok (d1, t)) (hg : d1.source = .handler g)
    (hrun : i.concRun = false) {y : ℤ} (hy1 : es ≤ y) (hy2 : y ≤ d0.nyend) {k : String}
    (hk : k = "CH4" ∨ k = "N2O") {x : Gas ℝ} (hx : i.gas.get? k = some x) (hu : x.concUnit ≠ "-") :
    ∃ c ∈ reportConc g, ∃ c0 c1 q, c.1 = k ∧ c.2 (y - 1) = some c0 ∧ c.2 y = some c1 ∧
      (k = "N2O" → q = 1 / x.tau1) ∧ (k = "CH4" → decayRate g k c0 y = .ok q) ∧
      (q ≠ 0 → AfterOneYear ((usedEmis i k y + (naturalTable i k).cell k y) / x.beta) q c0 c1) := by
  obtain ⟨c, hm, c0, c1, q, h1, h2, h3, h4, h5, h6⟩ := run_update hgas ht hc hd0 ha hr hg hrun hy1 hy2 hk hx hu
  refine ⟨c, hm, c0, c1, q, h1, h2, h3, h4, h5, fun hq0 => ?_⟩
  rw [h6]
  exact concUpdate_after hq0

end

/-- The emission-driven small run meets the hypotheses, for N2O in 2003. -/
example : ∃ h d1 g, construct Exec.plainCarbon (Exec.plainInputs false) Exec.plainPam none = .ok h ∧
    run Exec.plainCarbon Exec.plainThermal (Exec.plainDriver h) ⟨none, none, none⟩ = .ok (d1, ()) ∧
    d1.source = .handler g ∧ ∃ c ∈ reportConc g, ∃ c0 c1, c.1 = "N2O" ∧ c.2 2002 = some c0 ∧
      c.2 2003 = some c1 ∧ AfterOneYear ((8 + 10) / 4) (1 / 120) c0 c1 := by
  obtain ⟨h, d1, g, ht, hc, hr, hg, hk⟩ := plain_case false
  have hx : (Exec.plainInputs false).gas.get? "N2O" = some ⟨"ppb", 1, 4, 120, 0, 0, 0, 1⟩ := rfl
  obtain ⟨c, hcm, c0, c1, q, h1, h2, h3, h4, -, h6⟩ := C13_run (d0 := Exec.plainDriver h) (plain_keys false).1 ht hc rfl
    After.fresh hr hg rfl (y := 2003) (by norm_num) (by simp [Exec.plainDriver]) (Or.inr rfl) hx (by simp)
  refine ⟨h, d1, g, hc, hr, hg, c, hcm, c0, c1, h1, by simpa using h2, h3, ?_⟩
  have hq := h4 rfl
  have := h6 (by rw [hq]; norm_num)
  rw [hq] at this
  convert this using 2
  simp [usedEmis, naturalTable, Exec.plainInputs, Exec.plainEmis]
  norm_num

end Verif.Props
