import Verif.Lemmas.Emissions
import Verif.Exec.EmisRun
import Verif.Props.C63_udm
import Verif.Lemmas.Asked

/-!
# C97: what the emissions of a species reach in emission-driven runs
-/

namespace Verif.Props
open Verif.Py Verif.Py.Dict Verif.Model Verif.Model.Handler Verif.Model.Driver Verif.Spec

section
variable {κ τ κ' τ' : Type} {cops : CarbonOps ℝ κ} {tops : ThermalOps ℝ τ} {cops' : CarbonOps ℝ κ'} {tops' : ThermalOps ℝ τ'}
  {i i' : Inputs ℝ} {pamset pamset' : Option (Dict (PyVal ℝ))} {ps ps' : List (RunPams ℝ)} {p p' : RunPams ℝ}
  {luc luc' : List ℝ} {ns es ne : ℤ} {g : Handler ℝ κ} {g' : Handler ℝ κ'}

/-- Induction over the years of a run with emissions from `es` on. -/
theorem years_induction {P : ℤ → Prop} (hes : ns < es) (before : ∀ y, ns ≤ y → y < es → y ≤ ne → P y)
    (step : ∀ y, es ≤ y → y ≤ ne → P (y - 1) → P y) : ∀ y, ns ≤ y → y ≤ ne → P y := by
  have key : ∀ n : ℕ, ∀ y, ns ≤ y → y ≤ ne → y < es + n → P y := by
    intro n
    induction n with
    | zero => exact fun y h1 h2 h3 => before y h1 (by simpa using h3) h2
    | succ n ih =>
      intro y h1 h2 h3
      by_cases hy : y < es
      · exact before y h1 hy h2
      · exact step y (by omega) h2 (ih (y - 1) (by omega) (by omega) (by push_cast at h3; omega))
  intro y h1 h2
  exact key (y - es + 1).toNat y h1 h2 (by omega)

/-- C97: a gas other than CO2 and methane. Two emission-driven runs, whatever else their inputs, parameters, histories, carbon
cycles and thermal models: with at least as much of the gas prescribed before emissions start and at least as much emitted in
every later year, the gas is reported with at least as high a concentration in every year. -/
theorem C97_more (R : Ran cops tops i pamset ps p luc ns es ne g) (R' : Ran cops' tops' i' pamset' ps' p' luc' ns es ne g')
    (hne : es < ne) {k : String} {x x' : Gas ℝ} (hx : i.gas.get? k = some x) (hx' : i'.gas.get? k = some x')
    (hu : x.concUnit ≠ "-") (hu' : x'.concUnit ≠ "-") (hk : k ≠ "CO2") (hk4 : k ≠ "CH4") (hb : 0 < x.beta) (ht : 0 < x.tau1)
    (hbb : x'.beta = x.beta) (htt : x'.tau1 = x.tau1)
    (hp : ∀ y, ns ≤ y → y < es → i.concIn.cell k y ≤ i'.concIn.cell k y)
    (he : ∀ y, es ≤ y → y ≤ ne → totalEmis i k y ≤ totalEmis i' k y) :
    ∀ y, ns ≤ y → y ≤ ne → ∃ v v', concOf g k y = some v ∧ concOf g' k y = some v' ∧ v ≤ v' := by
  obtain ⟨v, hv, s⟩ := own_series R hne hx hu hk hk4 ht.ne'
  obtain ⟨v', hv', s'⟩ := own_series R' hne hx' hu' hk hk4 (by rw [htt]; exact ht.ne')
  have hes : ns < es := R.tables.order (by rw [concRun_pam, R.emission])
  intro y h1 h2
  refine ⟨v y, v' y, hv y h1 h2, hv' y h1 h2, ?_⟩
  refine years_induction (P := fun y => v y ≤ v' y) hes ?_ ?_ y h1 h2
  · intro z a1 a2 a3
    rw [s.prescribed z a1 a2 a3, s'.prescribed z a1 a2 a3]
    exact hp z a1 a2
  · intro z a1 a2 ih
    have e := s.computed z a1 a2
    have e' := s'.computed z a1 a2
    rw [hbb, htt] at e'
    have hq : 0 < 1 / x.tau1 := by positivity
    generalize 1 / x.tau1 = q at e e' hq
    rw [afterOneYear_iff hq.ne'] at e e'
    have h3 : (totalEmis i k z + 0) / x.beta / q ≤ (totalEmis i' k z + 0) / x.beta / q := by
      have := he z a1 a2
      gcongr
    have h4 : 0 ≤ 1 - Real.exp (-q) := by
      have := Real.exp_le_one_iff.2 (show -q ≤ 0 by linarith)
      linarith
    rw [e, e']
    nlinarith [mul_le_mul_of_nonneg_right h3 h4, mul_le_mul_of_nonneg_right ih (Real.exp_pos (-q)).le]

/-- C97, methane: with the same lifetime mode and the same emissions of NOx, CO and NMVOC, more methane emitted never gives less
methane, although the lifetime depends on the methane concentration; as long as the loss rate stays positive (it does in all modes
but TAR, see `methaneRate_pos`). -/
theorem C97_methane_more (R : Ran cops tops i pamset ps p luc ns es ne g)
    (R' : Ran cops' tops' i' pamset' ps' p' luc' ns es ne g') (hne : es ≤ ne) {x x' : Gas ℝ} (hx : i.gas.get? "CH4" = some x)
    (hx' : i'.gas.get? "CH4" = some x') (hu : x.concUnit ≠ "-") (hu' : x'.concUnit ≠ "-") (hb : 0 < x.beta) (ht : 0 < x.tau1)
    (hbb : x'.beta = x.beta) (htt : x'.tau1 = x.tau1 ∧ x'.tau2 = x.tau2 ∧ x'.tau3 = x.tau3)
    (hmode : g'.pam.get? "lifetime_mode" = g.pam.get? "lifetime_mode")
    (hoh : ∀ c ∈ ["NOx", "CO", "NMVOC"], ∀ y, usedEmis i' c y = usedEmis i c y)
    (hp : ∀ y, ns ≤ y → y < es → 0 < i.concIn.cell "CH4" y ∧ i.concIn.cell "CH4" y ≤ i'.concIn.cell "CH4" y)
    (he : ∀ y, es ≤ y → y ≤ ne → 0 ≤ totalEmis i "CH4" y ∧ totalEmis i "CH4" y ≤ totalEmis i' "CH4" y)
    (hrate : ∀ mode y c, g'.pam.get? "lifetime_mode" = some mode → es ≤ y → y ≤ ne → concOf g' "CH4" (y - 1) = some c → 0 < c →
      0 < methaneRate mode x' (usedEmis i') c y) :
    ∀ y, ns ≤ y → y ≤ ne → ∃ v v', concOf g "CH4" y = some v ∧ concOf g' "CH4" y = some v' ∧ 0 < v ∧ v ≤ v' := by
  obtain ⟨v, hv, s1, s2⟩ := methane_series R hne hx hu
  obtain ⟨v', hv', s1', s2'⟩ := methane_series R' hne hx' hu'
  have hes : ns < es := R.tables.order (by rw [concRun_pam, R.emission])
  have hsame : ∀ mode c y, methaneRate mode x' (usedEmis i') c y = methaneRate mode x (usedEmis i) c y := by
    intro mode c y
    unfold methaneRate
    rw [htt.1, htt.2.1, htt.2.2, hoh "NOx" (by simp), hoh "NOx" (by simp), hoh "CO" (by simp), hoh "CO" (by simp),
      hoh "NMVOC" (by simp), hoh "NMVOC" (by simp)]
  intro y h1 h2
  refine ⟨v y, v' y, hv y h1 h2, hv' y h1 h2, ?_⟩
  refine years_induction (P := fun y => 0 < v y ∧ v y ≤ v' y) hes ?_ ?_ y h1 h2
  · intro z a1 a2 a3
    rw [s1 z a1 a2 a3, s1' z a1 a2 a3]
    exact hp z a1 a2
  · intro z a1 a2 ih
    obtain ⟨mode, hm, e⟩ := s2 z a1 a2
    obtain ⟨mode', hm', e'⟩ := s2' z a1 a2
    have hmm : mode' = mode := by
      rw [hmode, hm, Option.some.injEq] at hm'
      exact hm'.symm
    subst hmm
    have pos := hrate mode' z (v' (z - 1)) hm' a1 a2 (hv' _ (by omega) (by omega)) (lt_of_lt_of_le ih.1 ih.2)
    rw [hsame] at pos e'
    rw [hbb] at e'
    have anti := methaneRate_anti (mode := mode') (e := usedEmis i) (y := z) ht ih.1 ih.2
    refine ⟨?_, ?_⟩
    · rw [e]
      exact concUpdate_pos hb (lt_of_lt_of_le pos anti) (he z a1 a2).1 ih.1
    · rw [e, e']
      exact concUpdate_mono hb pos anti (he z a1 a2).1 (he z a1 a2).2 ih.1.le ih.2

/-- C97: changing emissions of some species only changes the concentrations they reach: a gas other than CO2 and methane reacts to
its own emissions, methane and tropospheric ozone to those of methane, NOx, CO and NMVOC. The carbon cycle and the thermal model
may differ. -/
theorem C97_conc {K : List String} (R : Ran cops tops i pamset ps p luc ns es ne g)
    (R' : Ran cops' tops' i' pamset ps p luc' ns es ne g') (ho : OnlyEmissionsOf K i i') (hne : es < ne) {k : String} {x : Gas ℝ}
    (hx : i.gas.get? k = some x) (hk : k ≠ "CO2")
    (hu : (k = "TROP_O3" ∧ x.concUnit = "-" ∧ x.alpha = 0) ∨ (k ≠ "TROP_O3" ∧ x.concUnit ≠ "-" ∧ x.tau1 ≠ 0))
    (hr : ∀ c ∈ concReach k, c ∉ K) : ∀ y, ns ≤ y → y ≤ ne → ∃ v, concOf g k y = some v ∧ concOf g' k y = some v := by
  have hes : ns < es := R.tables.order (by rw [concRun_pam, R.emission])
  have hpam := ran_pam R R' ho.gas
  -- methane first
  have methane : ∀ x : Gas ℝ, i.gas.get? "CH4" = some x → x.concUnit ≠ "-" → (∀ c ∈ ["CH4", "NOx", "CO", "NMVOC"], c ∉ K) →
      ∀ y, ns ≤ y → y ≤ ne → ∃ v, concOf g "CH4" y = some v ∧ concOf g' "CH4" y = some v := by
    intro x hx hu hr
    obtain ⟨v, hv, s1, s2⟩ := methane_series R hne.le hx hu
    obtain ⟨v', hv', s1', s2'⟩ := methane_series R' hne.le (by rw [ho.gas]; exact hx) hu
    intro y h1 h2
    refine ⟨v y, hv y h1 h2, ?_⟩
    rw [hv' y h1 h2]
    congr 1
    refine years_induction (P := fun y => v' y = v y) hes ?_ ?_ y h1 h2
    · intro z a1 a2 a3
      rw [s1 z a1 a2 a3, s1' z a1 a2 a3, ho.concIn]
    · intro z a1 a2 ih
      obtain ⟨mode, hm, e⟩ := s2 z a1 a2
      obtain ⟨mode', hm', e'⟩ := s2' z a1 a2
      have hmm : mode' = mode := by
        rw [hpam, hm, Option.some.injEq] at hm'
        exact hm'.symm
      subst hmm
      have hsame : ∀ c, methaneRate mode' x (usedEmis i') c z = methaneRate mode' x (usedEmis i) c z := by
        intro c
        unfold methaneRate
        rw [usedEmis_only ho (hr "NOx" (by simp)), usedEmis_only ho (hr "NOx" (by simp)), usedEmis_only ho (hr "CO" (by simp)),
          usedEmis_only ho (hr "CO" (by simp)), usedEmis_only ho (hr "NMVOC" (by simp)), usedEmis_only ho (hr "NMVOC" (by simp))]
      rw [e, e', ih, hsame, totalEmis_only ho (hr "CH4" (by simp))]
  rcases hu with ⟨rfl, hu, hal⟩ | ⟨hk3, hu, ht1⟩
  · intro y h1 h2
    obtain ⟨xm, hxm, hum⟩ := R.gases.main "CH4" (by simp)
    obtain ⟨m, hm, hm'⟩ := methane xm hxm hum (by simpa [concReach] using hr) y h1 h2
    have hY : Yearly i.gas "TROP_O3" := ⟨x, hx, Or.inl hu, by decide, by decide⟩
    obtain ⟨hg, he, ht, hp, carb, h0, d0, d, d1, t, hc, hd0, -, rfl, rfl, ha, hrn, hs⟩ := id R
    obtain ⟨hg', he', ht', hp', carb', h0', d0', d', d1', t', hc', hd0', -, hns, hne', ha', hrn', hs'⟩ := id R'
    rw [← hns] at ht' h1
    rw [← hne'] at ht' h2
    obtain ⟨emis, ref, m0, e1, e2, e3, e4⟩ := C59_run_ozone hg.once hg.notTotal ht hc hd0 ha hrn hs (hns ▸ h1) (hne' ▸ h2)
      hY hx hal
    obtain ⟨emis', ref', m0', e1', e2', e3', e4'⟩ := C59_run_ozone hg'.once hg'.notTotal ht' hc' hd0' ha' hrn' hs' h1 h2
      (by rw [ho.gas]; exact hY) (by rw [ho.gas]; exact hx) hal
    obtain ⟨c, hcm, hck, hcy⟩ := e4 _ 0 (obs_observed R emis 0 y)
    have O' := obs_observed R' emis' 0 y
    rw [← hns] at O'
    obtain ⟨c', hcm', hck', hcy'⟩ := e4' _ 0 O'
    refine ⟨_, by rw [← hck, concOf_mem R hcm, hcy], ?_⟩
    rw [← hck', concOf_mem R' hcm', hcy', Option.some.injEq]
    have href : ref' = ref := by rw [hpam, e2, Except.ok.injEq] at e2'; exact e2'.symm
    have hm0 : m0' = m0 := by rw [ho.concIn, href, e3, Except.ok.injEq] at e3'; exact e3'.symm
    have hem : ∀ t ∈ ["NOx", "CO", "NMVOC"], ∀ z, emis'.at' t z = emis.at' t z := by
      intro t ht z
      refine at_only ho e1 e1' (hr t ?_) z
      simp only [concReach, or_true, if_true, List.mem_cons] at ht ⊢
      exact Or.inr ht
    unfold ForcingData.ozoneConc
    simp only [obs]
    rw [hm, hm', href, hm0, hem "NOx" (by simp), hem "NOx" (by simp), hem "CO" (by simp), hem "CO" (by simp),
      hem "NMVOC" (by simp), hem "NMVOC" (by simp)]
  · by_cases hk4 : k = "CH4"
    · subst hk4
      exact methane x hx hu (by simpa [concReach] using hr)
    · have hkK : k ∉ K := hr k (by simp [concReach, hk4, hk3])
      obtain ⟨v, hv, s⟩ := own_series R hne hx hu hk hk4 ht1
      obtain ⟨v', hv', s'⟩ := own_series R' hne (by rw [ho.gas]; exact hx) hu hk hk4 ht1
      intro y h1 h2
      refine ⟨v y, hv y h1 h2, ?_⟩
      rw [hv' y h1 h2]
      congr 1
      refine years_induction (P := fun y => v' y = v y) hes ?_ ?_ y h1 h2
      · intro z a1 a2 a3
        rw [s.prescribed z a1 a2 a3, s'.prescribed z a1 a2 a3, ho.concIn]
      · intro z a1 a2 ih
        have hq := one_div_ne_zero ht1
        have e := (afterOneYear_iff hq).1 (s.computed z a1 a2)
        have e' := (afterOneYear_iff hq).1 (s'.computed z a1 a2)
        rw [e, e', ih, totalEmis_only ho hkK]

/-- C97: and only the forcings they reach, for the components computed in the run: aerosols react to the emissions they are driven
by, methane and stratospheric water vapour to those of methane, N2O, NOx, CO and NMVOC, tropospheric ozone to those of methane,
NOx, CO and NMVOC. -/
theorem C97_forcing {K : List String} (R : Ran cops tops i pamset ps p luc ns es ne g)
    (R' : Ran cops' tops' i' pamset ps p luc ns es ne g') (ho : OnlyEmissionsOf K i i') (hne : es < ne)
    (hn2o : ∀ x, i.gas.get? "N2O" = some x → x.tau1 ≠ 0) (hch4 : ∀ x, i.gas.get? "CH4" = some x → x.tau1 ≠ 0)
    (hoz : ∀ x, i.gas.get? "TROP_O3" = some x → x.alpha = 0) {k : String} (hk : Yearly i.gas k) (hk1 : k ≠ "CO2")
    (hk2 : k ≠ "N2O") (hr : ∀ c ∈ forcReach k, c ∉ K) {y : ℤ} (hy1 : ns ≤ y) (hy2 : y ≤ ne) :
    ∃ c ∈ reportForcing g ns, ∃ c' ∈ reportForcing g' ns, c.1 = columnName k ∧ c'.1 = columnName k ∧
      ∃ v, c.2 y = some v ∧ c'.2 y = some v := by
  have hpam := ran_pam R R' ho.gas
  have conc : ∀ t x, i.gas.get? t = some x → t ≠ "CO2" →
      (t = "TROP_O3" ∧ x.concUnit = "-" ∧ x.alpha = 0) ∨ (t ≠ "TROP_O3" ∧ x.concUnit ≠ "-" ∧ x.tau1 ≠ 0) →
      (∀ c ∈ concReach t, c ∉ K) → ∀ z, ns ≤ z → z ≤ ne → concOf g' t z = concOf g t z := by
    intro t x hx ht hu hr z h1 h2
    obtain ⟨v, e, e'⟩ := C97_conc R R' ho hne hx ht hu hr z h1 h2
    rw [e, e']
  have hn := R.tables.nonempty
  obtain ⟨hg, he, ht, hp, carb, h0, d0, d, d1, t, hc, hd0, hl, rfl, rfl, ha, hrn, hs⟩ := id R
  obtain ⟨hg', he', ht', hp', carb', h0', d0', d', d1', t', hc', hd0', hl', hns, hne', ha', hrn', hs'⟩ := id R'
  obtain ⟨emis, l, e1, e2, e3⟩ := C59_run hg.once hg.notTotal ht hc hd0 ha hrn hs hy1 hy2
  rw [← hns] at ht'
  rw [← hne'] at ht'
  obtain ⟨emis', l', e1', e2', e3'⟩ := C59_run hg'.once hg'.notTotal ht' hc' hd0' ha' hrn' hs' (hns ▸ hy1) (hne' ▸ hy2)
  rw [hns] at e2' e3'
  obtain ⟨c, hm, hck, hcy⟩ := e3 _ (obs_observed R emis l y) k hk
  obtain ⟨c', hm', hck', hcy'⟩ := e3' _ (obs_observed R' emis' l' y) k (by rw [ho.gas]; exact hk)
  refine ⟨c, hm, c', hm', hck, hck', _, hcy, ?_⟩
  rw [hcy', ho.pertForc, Option.some.injEq, add_left_inj]
  have hll : l' = l := by
    rw [hl', ← hl, e2, Option.some.injEq] at e2'
    exact e2'.symm
  have hem : ∀ t ∉ K, ∀ z, (obs g' i' emis' l' d0.nystart y).emis t z = (obs g i emis l d0.nystart y).emis t z := by
    intro t ht z
    simp only [obs]
    rw [at_only ho e1 e1' ht]
  have hsarf : (obs g' i' emis' l' d0.nystart y).sarf = (obs g i emis l d0.nystart y).sarf := by
    simp only [obs, ho.gas]
  have halpha : (obs g' i' emis' l' d0.nystart y).alpha = (obs g i emis l d0.nystart y).alpha := by
    simp only [obs, ho.gas]
  have hpar : (obs g' i' emis' l' d0.nystart y).par = (obs g i emis l d0.nystart y).par := by
    simp only [obs, hpam]
  have hmeth : (∀ c ∈ ["CH4", "N2O", "NOx", "CO", "NMVOC"], c ∉ K) →
      (obs g' i' emis' l' d0.nystart y).methane = (obs g i emis l d0.nystart y).methane := by
    intro hr
    obtain ⟨xm, hxm, hum⟩ := R.gases.main "CH4" (by simp)
    obtain ⟨xn, hxn, hun⟩ := R.gases.main "N2O" (by simp)
    have cm := conc "CH4" xm hxm (by decide) (Or.inr ⟨by decide, hum, hch4 _ hxm⟩) (by
      intro c hc
      simp only [concReach, true_or, if_true, List.mem_cons, List.not_mem_nil, or_false] at hc
      rcases hc with rfl | rfl | rfl | rfl <;> exact hr _ (by simp))
    have cn := conc "N2O" xn hxn (by decide) (Or.inr ⟨by decide, hun, hn2o _ hxn⟩) (by
      intro c hc
      simp [concReach] at hc
      subst hc
      exact hr _ (by simp))
    unfold ForcingData.methane
    rw [hsarf]
    simp only [obs]
    rw [cm y hy1 hy2, cm _ le_rfl hn, cn y hy1 hy2, cn _ le_rfl hn]
  obtain ⟨x, hx, hu, hs3, hc1⟩ := hk
  unfold ForcingData.forcing
  rw [if_neg hk1, if_neg hk1, if_neg hk2, if_neg hk2, hsarf, halpha, hpar]
  by_cases q4 : k = "CH4"
  · rw [if_pos q4, if_pos q4]
    exact hmeth (by subst q4; simpa [forcReach] using hr)
  rw [if_neg q4, if_neg q4]
  by_cases q5 : k = "LANDUSE"
  · rw [if_pos q5, if_pos q5]
    exact hll
  rw [if_neg q5, if_neg q5]
  have hun : x.concUnit = "-" := hu.elim id (fun h => by
    rcases h with h | h | h
    · exact absurd h hk1
    · exact absurd h q4
    · exact absurd h hk2)
  by_cases q6 : IsAerosol k
  · rw [if_pos q6, if_pos q6]
    have hkr : k ∈ forcReach k := by
      unfold forcReach
      rw [if_neg (by
        rintro (h | h)
        · exact q4 h
        · subst h; exact absurd q6 (by unfold IsAerosol; decide))]
      split
      · rename_i h; subst h; exact absurd q6 (by unfold IsAerosol; decide)
      · split
        · rename_i h; subst h; simp
        · split
          · rename_i h; subst h; simp
          · simp
    have hch : ∀ t ∉ K, (obs g' i' emis' l' d0.nystart y).emisChange t = (obs g i emis l d0.nystart y).emisChange t := by
      intro t ht
      unfold ForcingData.emisChange
      rw [hem t ht, hem t ht]
      rfl
    unfold ForcingData.aerosol
    rw [halpha, hpar, hch k (hr k hkr)]
    split
    · rfl
    · cases hso : aerosolSource k with
      | none => rfl
      | some eq =>
        obtain ⟨e, q⟩ := eq
        simp only
        have her : e ∈ forcReach k := by
          unfold aerosolSource at hso
          repeat' split at hso
          all_goals
            first
            | (exfalso; revert hso; clear * -; intro h; cases h; done)
            | (rename_i h
               simp only [Option.some.injEq, Prod.mk.injEq] at hso
               obtain ⟨rfl, -⟩ := hso
               subst h
               decide)
        rw [hch e (hr e her)]
  rw [if_neg q6, if_neg q6]
  by_cases q7 : k = "TROP_O3"
  · subst q7
    have hal : (obs g i emis l d0.nystart y).alpha "TROP_O3" = 0 := by
      simp only [obs]
      rw [hx, ← hoz x hx]
      rfl
    rw [hal]
    simp only [ne_eq, not_true_eq_false, if_false, if_true]
    have co := conc "TROP_O3" x hx (by decide) (Or.inl ⟨rfl, hun, hoz x hx⟩) (by
      intro c hc
      refine hr c ?_
      simpa [concReach, forcReach] using hc)
    have hozo : (obs g' i' emis' l' d0.nystart y).ozone = (obs g i emis l d0.nystart y).ozone := by
      have cc : ∀ z, d0.nystart ≤ z → z ≤ d0.nyend →
          (obs g' i' emis' l' d0.nystart y).conc "TROP_O3" z = (obs g i emis l d0.nystart y).conc "TROP_O3" z := by
        intro z z1 z2
        simp only [obs]
        rw [co z z1 z2]
      have c0 := cc d0.nystart le_rfl hn
      have c1 := cc y hy1 hy2
      have s0 : (obs g' i' emis' l' d0.nystart y).start = d0.nystart := rfl
      have s1 : (obs g' i' emis' l' d0.nystart y).year = y := rfl
      have s2 : (obs g i emis l d0.nystart y).start = d0.nystart := rfl
      have s3 : (obs g i emis l d0.nystart y).year = y := rfl
      unfold ForcingData.ozone
      simp only [hpar, s0, s1, s2, s3, c0, c1]
    rw [hozo]
  · have hal : (obs g i emis l d0.nystart y).alpha k = 0 := by
      simp only [obs]
      rw [hx]
      have := hg.efficiency k x hx hun (fun h => q6 (by
        simpa [AerosolName, IsAerosol, or_assoc] using h)) (by
        simp only [List.mem_cons, List.not_mem_nil, or_false, not_or]
        exact ⟨q5, q7, hs3⟩)
      rw [misEq] at this
      rw [Option.map_some, Option.getD_some, this]
      norm_num
    rw [hal]
    simp only [ne_eq, not_true_eq_false, if_false, q7]
    by_cases q8 : k = "STRAT_H2O"
    · rw [if_pos q8, if_pos q8, hmeth (by subst q8; simpa [forcReach] using hr)]
    · rw [if_neg q8, if_neg q8]

/-- C97, gases whose forcing is computed ahead (without forcing perturbations): the forcing reacts to the gas's own emissions only. -/
theorem C97_forcing_ahead {K : List String} (R : Ran cops tops i pamset ps p luc ns es ne g)
    (R' : Ran cops' tops' i' pamset ps p luc' ns es ne g') (ho : OnlyEmissionsOf K i i') (hne : es < ne)
    (hpert : i.pertForc = none) {k : String} {x : Gas ℝ} (hx : i.gas.get? k = some x) (hk : Ahead i.gas k) (ht1 : x.tau1 ≠ 0)
    (hs3 : k ≠ "STRAT_O3") (ho3 : k ≠ "TROP_O3") (hr : k ∉ K) {y : ℤ} (hy1 : ns ≤ y) (hy2 : y ≤ ne) :
    ∃ c ∈ reportForcing g ns, ∃ c' ∈ reportForcing g' ns, c.1 = columnName k ∧ c'.1 = columnName k ∧
      ∃ v, c.2 y = some v ∧ c'.2 y = some v := by
  have hk' := hk
  obtain ⟨x', hx', hu, n1, n2, n3⟩ := hk'
  rw [hx, Option.some.injEq] at hx'
  subst hx'
  have conc := C97_conc R R' ho hne hx n1 (Or.inr ⟨ho3, hu, ht1⟩) (by
    intro c hc
    simp only [concReach, n2, ho3, or_self, if_false, List.mem_singleton] at hc
    subst hc
    exact hr)
  have hn := R.tables.nonempty
  obtain ⟨hg, he, ht, hp, carb, h0, d0, d, d1, t, hc, hd0, hl, rfl, rfl, ha, hrn, hs⟩ := id R
  obtain ⟨hg', he', ht', hp', carb', h0', d0', d', d1', t', hc', hd0', hl', hns, hne', ha', hrn', hs'⟩ := id R'
  rw [← hns] at ht'
  rw [← hne'] at ht'
  obtain ⟨c, hm, q, hq, v, v0, a1, a2, a3, a4, a5⟩ := C59_run_ahead hg.once hpert ht hc hd0 ha hrn hs hy1 hy2 hk hx hs3
  obtain ⟨c', hm', q', hq', v', v0', b1, b2, b3, b4, b5⟩ := C59_run_ahead hg'.once (by rw [ho.pertForc]; exact hpert) ht' hc' hd0'
    ha' hrn' hs' (hns ▸ hy1) (hne' ▸ hy2) (by rw [ho.gas]; exact hk) (by rw [ho.gas]; exact hx) hs3
  rw [hns] at hm' b4
  have same : ∀ z, d0.nystart ≤ z → z ≤ d0.nyend → ∀ w w', q.2 z = some w → q'.2 z = some w' → w' = w := by
    intro z z1 z2 w w' hw hw'
    obtain ⟨u, e, e'⟩ := conc z z1 z2
    rw [← a2, concOf_mem R hq, hw, Option.some.injEq] at e
    rw [← b2, concOf_mem R' hq', hw', Option.some.injEq] at e'
    rw [e, e']
  refine ⟨c, hm, c', hm', a1, b1, _, a5, ?_⟩
  rw [b5, same y hy1 hy2 _ _ a3 b3, same _ le_rfl hn _ _ a4 b4]

end

/-! ## The hypotheses are met -/

section
open Verif.Exec Verif.Model.CarbonInst Verif.Lemmas.Tridiag ThermalInst

/-- The third of three emission-driven runs in a row, with the default carbon cycle and the two-layer model. -/
theorem emis_case (f : String → ℝ) : ∃ g : Handler ℝ (IR ℝ), Ran irOps twoLayerOps (emisInputs f) richPam (richRuns.take 2)
    wigleyRun [2, 3, 3, 3, 3, 3] 1998 2000 2003 g ∧ g.pam.get? "lifetime_mode" = some (.str "WIGLEY") := by
  obtain ⟨h1, h2, h3, h4, h5⟩ := rich_pams
  obtain ⟨h0, hc, h⟩ := C63_default (carb := none) yearLaw_real (i := emisInputs f) rich_gases (emis_tables f) h1 h2 h3 h4
    (by decide) (.absent (by decide)) (by simp)
  obtain ⟨d1, hd⟩ := h (richDriver h0) (richRuns.take 2 ++ [wigleyRun]) rfl rfl rfl
    (rich_series h0) (by
    intro p hp
    simp only [richRuns, List.take, List.cons_append, List.nil_append, List.mem_cons, List.not_mem_nil, or_false] at hp
    rcases hp with rfl | rfl | rfl
    · exact ⟨h5, .absent (by decide), by simp⟩
    · exact ⟨rfl, .absent (by simp [Dict.keys]), by simp⟩
    · exact ⟨rfl, .absent (by simp [Dict.keys, wigleyRun]), by simp [wigleyRun]⟩)
  obtain ⟨d, t, ha, hr⟩ := after_snoc hd
  obtain ⟨h, hd, -⟩ := after_spec yearLaw_real (rfl : (richDriver h0).source = .handler h0) ha (fun _ => True)
      trivial (fun _ _ _ _ _ _ _ => trivial) (fun _ _ _ _ _ _ => trivial)
  obtain ⟨g0, g, hre, hg, S, -⟩ := run_handler_spec hd hr
  refine ⟨g, ⟨rich_gases, rfl, (emis_tables f).run h1 h2 h3, (emis_tables f).concCols,
    none, h0, richDriver h0, d, d1, t, hc, rfl, rfl, rfl, rfl, ha, hr, hg⟩, ?_⟩
  obtain ⟨pam, c, e, -, rfl⟩ := reset_spec hre
  rw [S.pam]
  simp only
  rw [avoid_get? _ _ _ (by decide), consistency_get? e, if_neg (by decide)]
  rfl

/-- A run with the diffusion model. -/
theorem emis_diffusion (f : String → ℝ) : ∃ g : Handler ℝ (IR ℝ), Ran irOps (udmOps exactSolver) (emisInputs f) richPam []
    ⟨some flatSet, none, none⟩ [2, 3, 3, 3, 3, 3] 1998 2000 2003 g := by
  obtain ⟨h1, h2, h3, h4, h5⟩ := rich_pams
  obtain ⟨h0, hc, h⟩ := C63_diffusion exactSolver_exact (carb := none) (i := emisInputs f) rich_gases (emis_tables f) h1 h2 h3
    h4 (by decide) (.absent (by decide)) (by simp)
  obtain ⟨d1, hd⟩ := h (richDriver h0) ([] ++ [⟨some flatSet, none, none⟩]) rfl rfl rfl
    (rich_series h0) (by
    intro p hp
    simp only [List.nil_append, List.mem_singleton] at hp
    subst hp
    exact ⟨⟨_, flat_set, flat_safe⟩, h5, .absent (by decide), by simp⟩)
  obtain ⟨d, t, ha, hr⟩ := after_snoc hd
  obtain ⟨h, hd, -⟩ := after_spec yearLaw_real (rfl : (richDriver h0).source = .handler h0) ha (fun _ => True)
      trivial (fun _ _ _ _ _ _ _ => trivial) (fun _ _ _ _ _ _ => trivial)
  obtain ⟨g0, g, -, hg, -⟩ := run_handler_spec hd hr
  exact ⟨g, rich_gases, rfl, (emis_tables f).run h1 h2 h3, (emis_tables f).concCols,
    none, h0, richDriver h0, d, d1, t, hc, rfl, rfl, rfl, rfl, ha, hr, hg⟩

theorem emis_used (f : String → ℝ) {c : String} (hc : c ≠ "CO2_FF") (y : ℤ) :
    usedEmis (emisInputs f) c y = ((y - 1990 : ℤ) : ℝ) + f c := by
  have : ¬ ("CO2_FF" = c) := fun e => hc e.symm
  simp [usedEmis, emisInputs, richInputs, emissionTarget, this]

/-- More CFC-11 emitted: a run with the diffusion model, compared with one with the two-layer model. -/
example : ∃ g g' : Handler ℝ (IR ℝ), Ran irOps twoLayerOps (emisInputs (fun _ => 0)) richPam (richRuns.take 2) wigleyRun
      [2, 3, 3, 3, 3, 3] 1998 2000 2003 g ∧
    Ran irOps (udmOps exactSolver) (emisInputs (fun c => if c = "CFC-11" then 5 else 0)) richPam []
      ⟨some flatSet, none, none⟩ [2, 3, 3, 3, 3, 3] 1998 2000 2003 g' ∧ ∀ y, 1998 ≤ y → y ≤ 2003 →
    ∃ v v', concOf g "CFC-11" y = some v ∧ concOf g' "CFC-11" y = some v' ∧ v ≤ v' := by
  obtain ⟨g, R, -⟩ := emis_case (fun _ => 0)
  obtain ⟨g', R'⟩ := emis_diffusion (fun c => if c = "CFC-11" then 5 else 0)
  refine ⟨g, g', R, R', C97_more R R' (by norm_num) (k := "CFC-11") rfl rfl (by decide) (by decide) (by decide) (by decide) (by norm_num)
    (by norm_num) rfl rfl (fun y _ _ => le_rfl) ?_⟩
  intro y _ _
  unfold totalEmis
  rw [emis_used _ (by decide), emis_used _ (by decide)]
  simp [emisInputs]

/-- More methane emitted, with the Wigley lifetime. -/
example : ∃ g g' : Handler ℝ (IR ℝ), Ran irOps twoLayerOps (emisInputs (fun _ => 0)) richPam (richRuns.take 2) wigleyRun
      [2, 3, 3, 3, 3, 3] 1998 2000 2003 g ∧
    Ran irOps twoLayerOps (emisInputs (fun c => if c = "CH4" then 100 else 0)) richPam (richRuns.take 2)
      wigleyRun [2, 3, 3, 3, 3, 3] 1998 2000 2003 g' ∧ ∀ y, 1998 ≤ y → y ≤ 2003 →
    ∃ v v', concOf g "CH4" y = some v ∧ concOf g' "CH4" y = some v' ∧ 0 < v ∧ v ≤ v' := by
  obtain ⟨g, R, hm⟩ := emis_case (fun _ => 0)
  obtain ⟨g', R', hm'⟩ := emis_case (fun c => if c = "CH4" then 100 else 0)
  refine ⟨g, g', R, R', C97_methane_more R R' (by norm_num) rfl rfl (by decide) (by decide) (by norm_num)
    (by norm_num) rfl ⟨rfl, rfl, rfl⟩ (by rw [hm, hm']) ?_ ?_ ?_ ?_⟩
  · intro c hc y
    have h1 : c ≠ "CO2_FF" ∧ c ≠ "CH4" := by
      simp only [List.mem_cons, List.not_mem_nil, or_false] at hc
      rcases hc with rfl | rfl | rfl <;> decide
    rw [emis_used _ h1.1, emis_used _ h1.1]
    simp [h1.2]
  · intro y a b
    refine ⟨?_, le_rfl⟩
    have : (0 : ℝ) ≤ ((y - 1995 : ℤ) : ℝ) := by norm_cast; omega
    simp only [emisInputs, richInputs]
    linarith
  · intro y a b
    have : (0 : ℝ) ≤ ((y - 1990 : ℤ) : ℝ) := by norm_cast; omega
    unfold totalEmis
    rw [emis_used _ (by decide), emis_used _ (by decide)]
    simp only [if_true, emisInputs, richInputs]
    constructor <;> linarith
  · intro mode y c hmo _ _ _ hc
    rw [hm', Option.some.injEq] at hmo
    exact methaneRate_pos (by rw [← hmo]; simp) (by norm_num) (by norm_num) (by norm_num) hc

/-- More sulphur and methane emitted: CFC-11 and N2O, and the forcing of black carbon and land use, stay as they were. -/
example : ∃ g g' : Handler ℝ (IR ℝ), Ran irOps twoLayerOps (emisInputs (fun _ => 0)) richPam (richRuns.take 2) wigleyRun
      [2, 3, 3, 3, 3, 3] 1998 2000 2003 g ∧
    Ran irOps twoLayerOps (emisInputs (fun c => if c ∈ ["CH4", "SO2"] then 100 else 0)) richPam (richRuns.take 2)
      wigleyRun [2, 3, 3, 3, 3, 3] 1998 2000 2003 g' ∧ ∀ y, 1998 ≤ y → y ≤ 2003 →
    (∃ v, concOf g "N2O" y = some v ∧ concOf g' "N2O" y = some v) ∧
    (∀ k ∈ ["BC", "LANDUSE", "BC_ASIA"], ∃ c ∈ reportForcing g 1998, ∃ c' ∈ reportForcing g' 1998, c.1 = columnName k ∧
      c'.1 = columnName k ∧ ∃ v, c.2 y = some v ∧ c'.2 y = some v) ∧
    ∃ c ∈ reportForcing g 1998, ∃ c' ∈ reportForcing g' 1998, c.1 = "CFC-11" ∧ c'.1 = "CFC-11" ∧
      ∃ v, c.2 y = some v ∧ c'.2 y = some v := by
  obtain ⟨g, R, hm⟩ := emis_case (fun _ => 0)
  obtain ⟨g', R', hm'⟩ := emis_case (fun c => if c ∈ ["CH4", "SO2"] then 100 else 0)
  have ho : OnlyEmissionsOf ["CH4", "SO2"] (emisInputs (fun _ => 0)) (emisInputs (fun c => if c ∈ ["CH4", "SO2"] then 100 else 0)) :=
    emis_only (fun c hc => if_neg hc)
  refine ⟨g, g', R, R', fun y h1 h2 => ⟨?_, ?_, ?_⟩⟩
  · exact C97_conc R R' ho (by norm_num) (k := "N2O") rfl (by decide) (Or.inr ⟨by decide, by decide, by norm_num⟩) (by decide) y h1 h2
  · intro k hk
    refine C97_forcing R R' ho (by norm_num) ?_ ?_ ?_ ?_ ?_ ?_ ?_ h1 h2
    · intro x hx; cases hx; norm_num
    · intro x hx; cases hx; norm_num
    · intro x hx; cases hx; rfl
    · simp only [List.mem_cons, List.not_mem_nil, or_false] at hk
      rcases hk with rfl | rfl | rfl <;> exact ⟨_, rfl, Or.inl rfl, by decide, by decide⟩
    · rintro rfl; revert hk; decide
    · rintro rfl; revert hk; decide
    · simp only [List.mem_cons, List.not_mem_nil, or_false] at hk
      rcases hk with rfl | rfl | rfl <;> decide
  · exact C97_forcing_ahead R R' ho (by norm_num) rfl (k := "CFC-11") rfl ⟨_, rfl, by decide, by decide, by decide, by decide⟩
      (by norm_num) (by decide) (by decide) (by decide) h1 h2

end

end Verif.Props
