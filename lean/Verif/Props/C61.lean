import Verif.Props.C07
import Verif.Lemmas.RunYear
import Verif.Lemmas.PlainRun

/-!
# C61 — what the carbon cycle receives and what becomes of its answer

For every carbon cycle model (`CarbonOps`) and every number type.
-/

namespace Verif.Props
open Verif.Py Verif.Py.Dict Verif.Model Verif.Model.Handler Verif.Model.Driver Verif.Spec

section
variable {F κ τ : Type} [Add F] [Sub F] [Mul F] [Div F] [Neg F] [OfScientific F] [LT F] [DecidableLT F]
  [MathFn F]

/-- Year by year the carbon cycle is stepped once, with the sum of fossil, land use and natural
emissions, and answers the concentration. `state y` is the carbon cycle before year `y`, `fb` the
feedback dictionaries, `conc` the concentrations. -/
def SteppedThrough (cops : CarbonOps F κ) (emis : Frame F) (nat : F) (ns ne : ℤ) (state : ℤ → κ)
    (fb : ℤ → Option (Dict F)) (conc : ℤ → Option F) : Prop :=
  ∀ y, ns ≤ y → y ≤ ne → ∃ ff lu v, emis.at' "CO2_FF" y = .ok ff ∧ emis.at' "CO2_AFOLU" y = .ok lu ∧
    cops.step (state y) y (ff + lu + nat) (fb y) = .ok (v, state (y + 1)) ∧ conc y = some v

theorem conc2forc_co2Key {h h' : Handler F κ} {yr : ℤ} {luc sun : F} {r : ForcResult F}
    (hc : conc2forc h yr luc sun = .ok (r, h')) : "CO2" ∈ h.concKeys := by
  unfold conc2forc at hc
  rw [bind_eq_ok] at hc
  obtain ⟨a, ha, -⟩ := hc
  unfold threeMain at ha
  simp only [bind_eq_ok] at ha
  obtain ⟨y0, -, n0, -, n, -, c0, h0, -⟩ := ha
  unfold Handler.concAt at h0
  split at h0
  · assumption
  · cases h0

theorem co2Emissions_ok {h : Handler F κ} {yr : ℤ} {em : F} (e : co2Emissions h yr = .ok em) :
    ∃ ff lu g, h.emis.at' "CO2_FF" yr = .ok ff ∧ h.emis.at' "CO2_AFOLU" yr = .ok lu ∧
      h.gas.get? "CO2" = some g ∧ em = ff + lu + g.natEm := by
  unfold co2Emissions at e
  simp only [bind_eq_ok] at e
  obtain ⟨ff, h1, lu, h2, g, h3, e⟩ := e
  rw [pure_ok, Except.ok.injEq] at e
  rw [gasAt_eq_ok] at h3
  exact ⟨ff, lu, g, h1, h2, h3, e.symm⟩

/-- C61: in an emission-driven run (any year, before and after the emission start, new instance or any
history) the carbon cycle of the instance, reset with this run's carbon parameters, is stepped exactly
once a year and in order. Each step receives the fossil plus land use plus natural emissions of the
year and the feedback values reported for the year before (none in the first year), and its answer is
the reported CO2 concentration of the year. -/
theorem C61_run (law : YearLaw F) {cops : CarbonOps F κ} {tops : ThermalOps F τ} {d0 d d1 : Driver F κ}
    {i : Inputs F} {pamset carb : Option (Dict (PyVal F))} {h0 g : Handler F κ} {es : ℤ}
    {ps : List (RunPams F)} {p : RunPams F} {t : τ} (hgas : i.gas.keys.Nodup)
    (hout : (tops.outputs.map Prod.fst ++ forcOutputList).Nodup)
    (ht : RunTables i.concIn i.emis (Dict.set (Factory.checkPamset pamset) "conc_run" (.bool i.concRun))
      d0.nystart es d0.nyend)
    (hc : construct cops i pamset carb = .ok h0) (hd0 : d0.source = .handler h0)
    (ha : After cops tops d0 ps d) (hr : run cops tops d p = .ok (d1, t)) (hg : d1.source = .handler g)
    (hrun : i.concRun = false) {x : Gas F} (hx : i.gas.get? "CO2" = some x) (hu : x.concUnit ≠ "-") :
    ∃ h emis state fb, perturbedEmis i = .ok emis ∧ d.source = .handler h ∧
      cops.reset h.carbon p.carbon = .ok (state d0.nystart) ∧ g.carbon = state (d0.nyend + 1) ∧
      fb d0.nystart = none ∧
      (∀ y, d0.nystart ≤ y → y ≤ d0.nyend → ∃ values : Dict F,
        fb (y + 1) = feedbackDict d0.feedbackList (some values) ∧
        ∀ o ∈ tops.outputs, ∃ v, values.get? o.2 = some v ∧
          entry d1.results o.1 (y - d0.nystart).toNat = some v) ∧
      ∃ c ∈ reportConc g, c.1 = "CO2" ∧
        SteppedThrough cops emis x.natEm d0.nystart d0.nyend state fb c.2 := by
  have hle := ht.nonempty
  obtain ⟨h, emis, tr, H, hd, hsame, htr, hreset, hH, hyr⟩ := run_years law ht hc hd0 ha hr hg
  obtain ⟨emis', cl, br, he, ht2, hpre, hcg, hci, hce, hcp, hcy⟩ := constructed hc ht
  have hns : d.nystart = d0.nystart := by rw [hsame]
  have hne : d.nyend = d0.nyend := by rw [hsame]
  obtain ⟨pam, k, -, hk, hHs⟩ := reset_spec hreset
  have hmemS : ∀ z, d0.nystart ≤ z → z ≤ d0.nyend → Same (H z) g := by
    intro z h1 h2
    obtain ⟨b, luc, sun, r, values, vn, vs, Y, -⟩ := hyr z h1 h2
    exact (Y.sameB.trans Y.sameC).trans Y.sameG
  have hndup : g.concKeys.Nodup := by
    rw [(hmemS d0.nystart (le_refl _) (by omega)).concKeys, hHs]
    simp only
    obtain ⟨-, -, hsp⟩ := mem_spicy hpre
    obtain ⟨h', hd', -, kept, -⟩ := after_spec law hd0 ha (fun _ => True) trivial
      (fun _ _ _ _ _ _ _ => trivial) (fun _ _ _ _ _ _ => trivial)
    rw [hd] at hd'
    cases hd'
    unfold concKeysOf
    rw [kept.prec, hsp]
    exact List.Nodup.filter _ (List.Nodup.filter _ hgas)
  refine ⟨h, emis, fun y => (H y).carbon, fun y => feedbackDict d0.feedbackList (tr y).values, ?_, hd, ?_, ?_, ?_, ?_, ?_⟩
  · obtain ⟨b, luc, sun, r, values, vn, vs, Y, -⟩ := hyr d0.nystart (le_refl _) (by omega)
    exact Y.emisE
  · simp only [hHs]; exact hk
  · simp only [hH]
  · have := (startRun_spec htr.start).2.2.2
    rw [hns] at this
    simp only [this]
    rfl
  · intro y h1 h2
    obtain ⟨b, luc, sun, r, values, vn, vs, Y, hy, -⟩ := hyr y h1 h2
    refine ⟨values, by simp only [hy.valuesE], ?_⟩
    intro o ho
    have e := entry_final htr hout o.1 (y := y) (by omega) (by omega)
    rw [hns] at e
    rw [e]
    have hres := hy.results
    rw [hns] at hres
    exact (addYearData_spec hout hres).2.2.1 o ho
  · have hCO2 : "CO2" ∈ g.concKeys := by
      obtain ⟨b, luc, sun, r, values, vn, vs, Y, hy, -⟩ := hyr d0.nystart (le_refl _) (by omega)
      have := conc2forc_co2Key Y.forc
      rwa [Y.sameG.concKeys, Y.sameC.concKeys]
    have hkg : "CO2" ∈ g.gas.keys := by
      obtain ⟨b, luc, sun, r, values, vn, vs, Y, hy, -⟩ := hyr d0.nystart (le_refl _) (by omega)
      rw [Y.keysG]
      exact (get?_isSome_iff _ _).1 ⟨x, hx⟩
    refine ⟨("CO2", fun y => if y ∈ g.years then g.conc "CO2" y else none), ?_, rfl, ?_⟩
    · unfold reportConc
      refine List.mem_map.2 ⟨"CO2", List.mem_filter.2 ⟨hkg, by simp [hCO2]⟩, ?_⟩
      rw [Prod.mk.injEq]
      refine ⟨rfl, ?_⟩
      funext y
      rw [if_pos hCO2]
    · intro y h1 h2
      obtain ⟨b, luc, sun, r, values, vn, vs, Y, hy, -⟩ := hyr y h1 h2
      have hgy : y ∈ g.years := by
        rw [Y.sameG.years, Y.sameC.years, Y.sameB.years, Y.years, mem_pyRange]; omega
      have hco : (H y).gas.get? "CO2" = some x := by
        have := Y.gas "CO2"
        rw [hx] at this
        cases hq : (H y).gas.get? "CO2" with
        | none => rw [hq] at this; cases this
        | some q =>
          rw [hq] at this
          simpa [canon] using this
      have hkeysH : (H y).concKeys = g.concKeys := by
        rw [(hmemS y h1 h2).concKeys]
      have key : ∃ em r', co2Emissions (H y) y = .ok em ∧
          cops.step (H y).carbon y em (feedbackDict d0.feedbackList (tr y).values) = .ok r' ∧
          b.carbon = r'.2 ∧ b.conc "CO2" y = some r'.1 := by
        obtain ⟨run', hrn, ⟨hb, e⟩ | ⟨_, es', _, ⟨_, e⟩ | ⟨_, e⟩⟩⟩ := emi2conc_cases Y.emi
        · rw [Y.run, hrun, Except.ok.injEq] at hrn
          rw [hb] at hrn
          cases hrn
        · exact (beforeEmstart_spec e).2.2.2.2.1
        · obtain ⟨-, -, -, hk4, -⟩ := tracerLoop_spec _ _ _ (by rw [hkeysH]; exact hndup) e
          obtain ⟨q, hq, -, -, h4⟩ := hk4 "CO2" (by rw [hkeysH]; exact hCO2)
          rw [show (addRowOfZeros (H y) y).gas = (H y).gas from rfl, hco, Option.some.injEq] at hq
          subst hq
          obtain ⟨em, r', a1, a2, a3, a4⟩ := h4 hu rfl
          exact ⟨em, r', a1, a2, a4, a3⟩
      obtain ⟨em, r', b1, b2, b3, b4⟩ := key
      obtain ⟨ff, lu, q, c1, c2, c3, rfl⟩ := co2Emissions_ok b1
      rw [hco, Option.some.injEq] at c3
      subst c3
      rw [Y.emis] at c1 c2
      obtain ⟨i0, hi0, s2, hcar, -⟩ := conc2forc_frame Y.forc
      refine ⟨ff, lu, r'.1, c1, c2, ?_, ?_⟩
      · simp only
        rw [hcar, b3]
        exact b2
      · simp only
        rw [if_pos hgy, Y.concZ "CO2" y (le_refl _), conc2forc_conc Y.forc (by decide), b4]

/-- C61, the other mode: in a concentration-driven run the carbon cycle is reset but never stepped. -/
theorem C61_conc_run (law : YearLaw F) {cops : CarbonOps F κ} {tops : ThermalOps F τ} {d0 d d1 : Driver F κ}
    {i : Inputs F} {pamset carb : Option (Dict (PyVal F))} {h0 g : Handler F κ} {es : ℤ}
    {ps : List (RunPams F)} {p : RunPams F} {t : τ}
    (ht : RunTables i.concIn i.emis (Dict.set (Factory.checkPamset pamset) "conc_run" (.bool i.concRun))
      d0.nystart es d0.nyend)
    (hc : construct cops i pamset carb = .ok h0) (hd0 : d0.source = .handler h0)
    (ha : After cops tops d0 ps d) (hr : run cops tops d p = .ok (d1, t)) (hg : d1.source = .handler g)
    (hrun : i.concRun = true) :
    ∃ h, d.source = .handler h ∧ cops.reset h.carbon p.carbon = .ok g.carbon := by
  obtain ⟨h, emis, tr, H, hd, hsame, htr, hreset, hH, hyr⟩ := run_years law ht hc hd0 ha hr hg
  obtain ⟨pam, k, -, hk, hHs⟩ := reset_spec hreset
  refine ⟨h, hd, ?_⟩
  have key : ∀ n : ℕ, d0.nystart + n ≤ d0.nyend + 1 → (H (d0.nystart + n)).carbon = k := by
    intro n
    induction n with
    | zero => intro _; rw [Nat.cast_zero, add_zero, hHs]
    | succ n ih =>
      intro hn
      push_cast at hn
      obtain ⟨b, luc, sun, r, values, vn, vs, Y, -⟩ := hyr (d0.nystart + n) (by omega) (by omega)
      obtain ⟨_, _, _, hcar, -⟩ := conc2forc_frame Y.forc
      rw [show d0.nystart + ((n + 1 : ℕ) : ℤ) = d0.nystart + n + 1 by push_cast; ring]
      simp only at hcar
      rw [hcar]
      obtain ⟨run', hrn, ⟨_, e⟩ | ⟨hb, _⟩⟩ := emi2conc_cases Y.emi
      · rw [(fillOneRow_spec e).2.2.1, ih (by omega)]
      · rw [Y.run, hrun, Except.ok.injEq, hb] at hrn
        cases hrn
  have := key (d0.nyend + 1 - d0.nystart).toNat (by have := ht.nonempty; omega)
  rw [show d0.nystart + ((d0.nyend + 1 - d0.nystart).toNat : ℤ) = d0.nyend + 1 by
    have := ht.nonempty; omega, hH] at this
  rw [this]
  exact hk

end

/-- The emission-driven small run over the reals meets the hypotheses. Its carbon cycle adds up what it
receives, so the reported CO2 concentration of 2001 is 278 plus two years of emissions (5 + 5 in 2000,
6 + 6 in 2001). -/
example : ∃ h d1 g, construct Exec.plainCarbon (Exec.plainInputs false) Exec.plainPam none = .ok h ∧
    run Exec.plainCarbon Exec.plainThermal (Exec.plainDriver h) ⟨none, none, none⟩ = .ok (d1, ()) ∧
    d1.source = .handler g ∧ ∃ c ∈ reportConc g, c.1 = "CO2" ∧ c.2 2001 = some (278 + 22) := by
  obtain ⟨h, d1, g, ht, hc, hr, hg, hk⟩ := plain_case false
  have hx : (Exec.plainInputs false).gas.get? "CO2" = some ⟨"ppm", 1, 2, 1, 0, 0, 0, 1⟩ := rfl
  obtain ⟨h', emis, state, fb, he, -, h1, -, -, -, c, hcm, hc1, hst⟩ := C61_run (d0 := Exec.plainDriver h)
    yearLaw_real (plain_keys false).1 (by decide) ht hc rfl After.fresh hr hg rfl hx (by simp)
  refine ⟨h, d1, g, hc, hr, hg, c, hcm, hc1, ?_⟩
  have he' : emis = Exec.plainEmis := by
    simpa [perturbedEmis, Exec.plainInputs] using he.symm
  subst he'
  obtain ⟨f0, l0, v0, a1, a2, a3, -⟩ := hst 2000 (le_refl _) (by simp [Exec.plainDriver])
  obtain ⟨f1, l1, v1, b1, b2, b3, b4⟩ := hst 2001 (by simp [Exec.plainDriver]) (by simp [Exec.plainDriver])
  have e : ∀ c y v, Exec.plainEmis.at' c y = .ok v → v = ((y - 1995 : ℤ) : ℝ) := by
    intro c y v hv
    exact ((frame_at'_eq_ok.1 hv).2.2).symm
  have hf0 := e _ _ _ a1
  have hl0 := e _ _ _ a2
  have hf1 := e _ _ _ b1
  have hl1 := e _ _ _ b2
  simp only [Exec.plainCarbon, Except.ok.injEq, Prod.mk.injEq, Exec.plainDriver] at h1 a3 b3
  rw [b4, ← b3.1, show (2001 : ℤ) = 2000 + 1 by norm_num] at *
  rw [← a3.2, ← h1, hf0, hl0, hf1, hl1]
  norm_num

end Verif.Props
