import Verif.Props.C14
import Verif.Props.C59
import Verif.Props.C62
import Verif.Props.C71
import Verif.Lemmas.AgreeConstruct

/-!
# C14 for whole runs: the reported concentrations of the gases computed ahead
-/

namespace Verif.Props
open Verif.Py Verif.Py.Dict Verif.Model Verif.Model.Handler Verif.Model.Driver Verif.Spec

section
variable {κ τ : Type} {cops : CarbonOps ℝ κ} {tops : ThermalOps ℝ τ} {d0 d d1 : Driver ℝ κ}
  {i : Inputs ℝ} {pamset carb : Option (Dict (PyVal ℝ))} {h0 g : Handler ℝ κ} {es : ℤ} {ps : List (RunPams ℝ)} {p : RunPams ℝ}
  {t : τ}

/-- The column a gas computed ahead is reported in. -/
theorem ahead_reported (hgas : i.gas.keys.Nodup)
    (ht : RunTables i.concIn i.emis (Dict.set (Factory.checkPamset pamset) "conc_run" (.bool i.concRun))
      d0.nystart es d0.nyend)
    (hc : construct cops i pamset carb = .ok h0) (hd0 : d0.source = .handler h0)
    (ha : After cops tops d0 ps d) (hr : run cops tops d p = .ok (d1, t)) (hg : d1.source = .handler g)
    {k : String} (hk : Ahead i.gas k) :
    ∃ emis, perturbedEmis i = .ok emis ∧ ∃ c ∈ reportConc g, c.1 = k ∧ ∀ y, d0.nystart ≤ y → y ≤ d0.nyend →
      c.2 y = some (preSeries i.gas i.concIn emis i.concRun es d0.nyend k y) := by
  obtain ⟨emis, a, b, c, fb, luc, sun, r, Y, hluc, -⟩ := run_year yearLaw_real ht hc hd0 ha hr hg le_rfl ht.nonempty
  obtain ⟨emis', cl, br, he, ht2, hpre, hcg, hci, hce, hcp, hcy⟩ := constructed hc ht
  obtain ⟨hvg, hpc, hsp⟩ := mem_spicy hpre
  have hkv : k ∈ h0.prec.gases := (mem_vanilla hgas hvg k).2 hk
  have hkg : k ∈ i.gas.keys := by
    obtain ⟨x, hx, -⟩ := hk
    exact (get?_isSome_iff _ _).1 ⟨x, hx⟩
  obtain ⟨hrows, -, -⟩ := precalcConc_rows hpc (concRun_pam _ _) ht2
  have hgp : g.prec = h0.prec := by rw [Y.sameG.prec, Y.sameC.prec, Y.sameB.prec, Y.prec]
  have hnc : k ∉ g.concKeys := by
    obtain ⟨h, hd, -, kept, -⟩ := after_spec yearLaw_real hd0 ha (fun _ => True) trivial
      (fun _ _ _ _ _ _ _ => trivial) (fun _ _ _ _ _ _ => trivial)
    obtain ⟨g0, g', hre, hg', hs, -, -⟩ := run_handler_spec hd hr
    rw [hg] at hg'
    cases hg'
    obtain ⟨pam, c, -, -, rfl⟩ := reset_spec hre
    rw [hs.concKeys]
    simp only [concKeysOf]
    intro hm
    rw [kept.prec, hsp] at hm
    have := (List.mem_filter.1 (List.mem_filter.1 hm).1).2
    simp only [decide_eq_true_eq] at this
    exact this.1 hkv
  have hgy : g.years = pyRange d0.nystart (d0.nyend + 1) := by
    rw [Y.sameG.years, Y.sameC.years, Y.sameB.years, Y.years]
  refine ⟨emis', he, (k, fun z => if z ∈ g.years then
    if k ∈ g.concKeys then g.conc k z else (g.prec.conc.lookup z).map (fun r => r k) else none), ?_, rfl, ?_⟩
  · unfold reportConc
    refine List.mem_map.2 ⟨k, List.mem_filter.2 ⟨by rw [Y.keysG]; exact hkg, ?_⟩, rfl⟩
    rw [hgp]
    simp [hkv]
  · intro y h1 h2
    simp only
    rw [hgy, if_pos (by rw [mem_pyRange]; omega), if_neg hnc, hgp, hrows, lookup_map_pyRange, if_pos (by omega)]
    rfl

/-- C14 for runs (partial: `emstart` is not the last year of the run, see `C14_last_year_false`): in every emission-driven run of
an instance, new or after any history, the reported concentration of every gas computed ahead is the prescribed one before
`emstart` and from then on, in every year, the solution after one year of `dC/dt = (emissions + natural emissions) / beta - C /
tau`, started from the concentration reported for the year before. -/
theorem C14_run_partial (hgas : i.gas.keys.Nodup)
    (ht : RunTables i.concIn i.emis (Dict.set (Factory.checkPamset pamset) "conc_run" (.bool i.concRun))
      d0.nystart es d0.nyend)
    (hc : construct cops i pamset carb = .ok h0) (hd0 : d0.source = .handler h0)
    (ha : After cops tops d0 ps d) (hr : run cops tops d p = .ok (d1, t)) (hg : d1.source = .handler g)
    (hrun : i.concRun = false) (hne : es ≠ d0.nyend) {k : String} {x : Gas ℝ} (hk : Ahead i.gas k)
    (hx : i.gas.get? k = some x) (htau : x.tau1 ≠ 0) :
    ∃ c ∈ reportConc g, c.1 = k ∧ ∃ v : ℤ → ℝ, (∀ y, d0.nystart ≤ y → y ≤ d0.nyend → c.2 y = some (v y)) ∧
      DecaySeries (i.concIn.cell k) (usedEmis i k) x.natEm x.beta x.tau1 d0.nystart es d0.nyend v := by
  obtain ⟨emis, he, c, hm, hck, hcy⟩ := ahead_reported hgas ht hc hd0 ha hr hg hk
  refine ⟨c, hm, hck, _, hcy, ?_, ?_⟩
  · intro y h1 h2 h3
    unfold preSeries
    split
    · rfl
    · unfold series
      rw [if_pos h2]
  · intro y h1 h2
    have hs : ∀ z, preSeries i.gas i.concIn emis i.concRun es d0.nyend k z = series (gasOr i.gas) i.concIn emis es k z := by
      intro z
      unfold preSeries
      rw [hrun, if_neg]
      rintro (a | a)
      · cases a
      · omega
    rw [hs, hs, series_step _ _ _ _ _ h1, vanillaUpdate_eq]
    have : gasOr i.gas k = x := by unfold gasOr; rw [hx]; rfl
    rw [this]
    obtain ⟨k0, l, hidx, a1, a2⟩ := ht.emisIdx
    rw [(perturbedEmis_spec he).2.2 k y (by rw [hidx, mem_pyRange]; omega)]
    exact concUpdate_after (one_div_ne_zero htau)

end

open Verif.Exec Verif.Model.CarbonInst in
/-- The third of three emission-driven runs in a row: CFC-11. -/
example : ∃ (h0 : Handler ℝ (IR ℝ)) (d1 : Driver ℝ (IR ℝ)) (g : Handler ℝ (IR ℝ)),
    construct irOps (richInputs false) richPam none = .ok h0 ∧
    d1.source = .handler g ∧ ∃ c ∈ reportConc g, c.1 = "CFC-11" ∧ ∃ v : ℤ → ℝ, (∀ y, 1998 ≤ y → y ≤ 2003 → c.2 y = some (v y)) ∧
      DecaySeries (fun y => 300 + (y - 1995 : ℤ)) (fun y => (y - 1990 : ℤ)) 0 20 45 1998 2000 2003 v := by
  obtain ⟨h0, d, d1, t, g, hc, ht, ha, hr, hg⟩ := rich_case_default false
  obtain ⟨c, hm, hk, v, hv, hs⟩ := C14_run_partial (d0 := richDriver h0) rich_gases.once ht hc rfl ha hr hg rfl
    (by simp [richDriver]) (k := "CFC-11") ⟨_, rfl, by decide, by decide, by decide, by decide⟩ rfl (by norm_num)
  refine ⟨h0, d1, g, hc, hg, c, hm, hk, v, hv, ?_⟩
  have he : usedEmis (richInputs false) "CFC-11" = fun y => ((y - 1990 : ℤ) : ℝ) := by
    funext y
    simp [usedEmis, richInputs, emissionTarget]
  rw [he] at hs
  exact hs

end Verif.Props
