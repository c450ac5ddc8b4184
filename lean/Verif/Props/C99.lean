import Verif.Lemmas.OtherEmissions
import Verif.Props.C96
import Verif.Props.C71
import Verif.Spec.Co2Emissions
import Verif.Exec.LaterRun
import Verif.Props.C13
import Verif.Props.C82

/-!
# C99: more CO2 emitted

Two emission-driven runs whose inputs differ in the emissions of CO2 only.
-/

namespace Verif.Props
open Verif.Py Verif.Py.Dict Verif.Model Verif.Model.Handler Verif.Model.Driver Verif.Model.ThermalInst Verif.Model.CarbonInst
open Verif.Spec
open Verif.Spec.Diffusion (Physical feedback Ordered Gentle)
open Verif.Spec.Tridiag (Exact)

section
variable {κ τ κ' τ' : Type} {cops : CarbonOps ℝ κ} {tops : ThermalOps ℝ τ} {cops' : CarbonOps ℝ κ'} {tops' : ThermalOps ℝ τ'}
  {i i' : Inputs ℝ} {pamset : Option (Dict (PyVal ℝ))} {ps : List (RunPams ℝ)} {p : RunPams ℝ}
  {luc : List ℝ} {ns es ne : ℤ} {g : Handler ℝ κ} {g' : Handler ℝ κ'} {sc sn : ℝ}

/-- No forcing of another component reacts to the emissions of CO2. -/
theorem forcReach_co2 {k : String} (hk : k ∉ co2Species) : ∀ c ∈ forcReach k, c ∉ co2Species := by
  have h1 : ∀ c ∈ ["CH4", "N2O", "NOx", "CO", "NMVOC"], c ∉ co2Species := by decide
  have h2 : ∀ c ∈ ["CH4", "NOx", "CO", "NMVOC"], c ∉ co2Species := by decide
  have h3 : ∀ c ∈ ["SO4_IND", "SO2"], c ∉ co2Species := by decide
  have h4 : ∀ c ∈ ["BMB_AEROS", "BMB_AEROS_OC"], c ∉ co2Species := by decide
  unfold forcReach
  split_ifs
  · exact h1
  · exact h2
  · exact h3
  · exact h4
  · intro c hc
    rw [List.mem_singleton] at hc
    rw [hc]
    exact hk

/-- The forcings of CO2 and N2O in a run without perturbations of the forcing. -/
theorem main_forcing (R : Ran cops tops i pamset ps p luc ns es ne g) (hpert : i.pertForc = none) (hx : Factors i.gas sc sn)
    {y : ℤ} (hy1 : ns ≤ y) (hy2 : y ≤ ne) :
    (∃ c ∈ reportForcing g ns, c.1 = "CO2" ∧ c.2 y = some (sc * co2Forcing (reportedConc g "CO2" y) (reportedConc g "CO2" ns)
      (reportedConc g "N2O" y) (reportedConc g "N2O" ns))) ∧
    ∃ c ∈ reportForcing g ns, c.1 = "N2O" ∧ c.2 y = some (sn * n2oForcing (reportedConc g "N2O" y) (reportedConc g "N2O" ns)
      (reportedConc g "CO2" y) (reportedConc g "CO2" ns) (reportedConc g "CH4" y) (reportedConc g "CH4" ns)) := by
  have O := fun emis l => obs_observed R emis l y
  obtain ⟨hg, he, ht, hp, carb, h0, d0, d, d1, t, hc, hd0, hl, rfl, rfl, ha, hrn, hs⟩ := id R
  obtain ⟨emis, l, e1, e2, e3⟩ := C59_run hg.once hg.notTotal ht hc hd0 ha hrn hs hy1 hy2
  obtain ⟨xc, hxc, hsc⟩ := hx.co2
  obtain ⟨xn, hxn, hsn⟩ := hx.n2o
  obtain ⟨c, hm, hck, hcy⟩ := e3 _ (O emis l) "CO2" ⟨xc, hxc, by simp, by decide, by decide⟩
  obtain ⟨c', hm', hck', hcy'⟩ := e3 _ (O emis l) "N2O" ⟨xn, hxn, by simp, by decide, by decide⟩
  refine ⟨⟨c, hm, by rw [hck]; decide, ?_⟩, c', hm', by rw [hck']; decide, ?_⟩
  · rw [hcy, hpert]
    simp only [ForcingData.forcing, obs, pertOf, hxc, Option.map_some, Option.getD_some, hsc, if_true, Option.getD_none,
      List.filter_nil, List.map_nil, List.sum_nil, add_zero]
    rfl
  · rw [hcy', hpert]
    simp only [ForcingData.forcing, obs, pertOf, hxn, Option.map_some, Option.getD_some, hsn, if_true, Option.getD_none,
      List.filter_nil, List.map_nil, List.sum_nil, add_zero, show ("N2O" = "CO2") = False by simp,
      show ("N2O" = "CH4") = False by simp, if_false]
    rfl

/-- **C99.** Two instances whose inputs differ in the emissions of CO2 only, driven by emissions, without perturbations of the
forcing, new or after runs with the same parameters. For all carbon cycles and thermal models and in every year, the reported
forcing of CO2 moves by the documented effect of the reported concentrations, that of N2O by the documented effect of the overlap,
and every other reported component is the same. -/
theorem C99_forcing (R : Ran cops tops i pamset ps p luc ns es ne g) (R' : Ran cops' tops' i' pamset ps p luc ns es ne g')
    (ho : OnlyEmissionsOf co2Species i i') (hne : es < ne) (hpert : i.pertForc = none) (U : UsualGases i.gas)
    (hx : Factors i.gas sc sn) {y : ℤ} (hy1 : ns ≤ y) (hy2 : y ≤ ne) :
    List.Forall₂ (fun c c' => c'.1 = c.1 ∧
        (c.1 = "CO2" → ∃ v, c.2 y = some v ∧ c'.2 y = some (v + co2Effect sc (reportedConc g) (reportedConc g') ns y)) ∧
        (c.1 = "N2O" → ∃ v, c.2 y = some v ∧ c'.2 y = some (v + overlapEffect sn (reportedConc g) (reportedConc g') ns y)) ∧
        (c.1 ≠ "CO2" → c.1 ≠ "N2O" → c.1 ≠ "Total_forcing" → c'.2 y = c.2 y))
      (reportForcing g ns) (reportForcing g' ns) := by
  have hgas := R.gases.once
  have hK : ∀ k ∈ i.gas.keys, k ∉ co2Species := fun k hk hm => U.names k hm hk
  obtain ⟨hgs, hcols, hspi, hval⟩ := ahead_same R R' ho hpert (by
    rintro k ⟨x, hx, -⟩
    exact hK k ((get?_isSome_iff _ _).1 ⟨x, hx⟩))
  obtain ⟨emis, clbr, -, -, -, hpre, hfk, hyrs⟩ := ran_prec R
  obtain ⟨emis', clbr', -, -, -, -, hfk', hyrs'⟩ := ran_prec R'
  obtain ⟨hvg, -, hsp⟩ := mem_spicy hpre
  have nd := ran_nodup R U.notDirect
  have nd' := ran_nodup R' (by rw [ho.gas]; exact U.notDirect)
  obtain ⟨⟨c, m1, n1, v1⟩, c2, m2, n2, v2⟩ := main_forcing R hpert hx hy1 hy2
  obtain ⟨⟨c', m1', n1', v1'⟩, c2', m2', n2', v2'⟩ := main_forcing R' (by rw [ho.pertForc]; exact hpert)
    (by rw [ho.gas]; exact hx) hy1 hy2
  have pick : ∀ {κ : Type} {g : Handler ℝ κ}, ((reportForcing g ns).map Prod.fst).Nodup → ∀ {a b : String × (ℤ → Option ℝ)},
      a ∈ reportForcing g ns → b ∈ reportForcing g ns → a.1 = b.1 → a.2 y = b.2 y := by
    intro κ g nd a b ha hb e
    rw [List.inj_on_of_nodup_map nd ha hb e]
  -- every pair of columns with the same name
  have pairs : ∀ a ∈ reportForcing g ns, ∀ b ∈ reportForcing g' ns, b.1 = a.1 →
      (a.1 ≠ "CO2" → a.1 ≠ "N2O" → a.1 ≠ "Total_forcing" → b.2 y = a.2 y) →
      b.1 = a.1 ∧
        (a.1 = "CO2" → ∃ v, a.2 y = some v ∧ b.2 y = some (v + co2Effect sc (reportedConc g) (reportedConc g') ns y)) ∧
        (a.1 = "N2O" → ∃ v, a.2 y = some v ∧ b.2 y = some (v + overlapEffect sn (reportedConc g) (reportedConc g') ns y)) ∧
        (a.1 ≠ "CO2" → a.1 ≠ "N2O" → a.1 ≠ "Total_forcing" → b.2 y = a.2 y) := by
    intro a ha b hb e h
    refine ⟨e, fun q => ?_, fun q => ?_, h⟩
    · refine ⟨_, by rw [pick nd ha m1 (by rw [q, n1])]; exact v1, ?_⟩
      rw [pick nd' hb m1' (by rw [e, q, n1']), v1', Option.some.injEq]
      unfold co2Effect
      ring
    · refine ⟨_, by rw [pick nd ha m2 (by rw [q, n2])]; exact v2, ?_⟩
      rw [pick nd' hb m2' (by rw [e, q, n2']), v2', Option.some.injEq]
      unfold overlapEffect
      ring
  have e1 : reportForcing g' ns = g.forcKeys.map (fun k => (reportName k, fun y =>
        if y < ns ∨ g.years.length ≤ (y - ns).toNat then none else some (g'.forc k (y - ns).toNat)))
      ++ g.prec.erf.cols.map (fun k => (reportName k, fun y => g'.prec.erf.val k y)) := by
    unfold reportForcing
    rw [hfk', hspi, ← hfk, hcols, hyrs', ← hyrs]
  have e0 : reportForcing g ns = g.forcKeys.map (fun k => (reportName k, fun y =>
        if y < ns ∨ g.years.length ≤ (y - ns).toNat then none else some (g.forc k (y - ns).toNat)))
      ++ g.prec.erf.cols.map (fun k => (reportName k, fun y => g.prec.erf.val k y)) := rfl
  suffices H : List.Forall₂ (fun a b => a ∈ reportForcing g ns ∧ b ∈ reportForcing g' ns ∧ b.1 = a.1 ∧
      (a.1 ≠ "CO2" → a.1 ≠ "N2O" → a.1 ≠ "Total_forcing" → b.2 y = a.2 y)) (reportForcing g ns) (reportForcing g' ns) by
    refine H.imp ?_
    rintro a b ⟨h1, h2, h3, h4⟩
    exact pairs a h1 b h2 h3 h4
  have mem0 : ∀ a ∈ g.forcKeys.map (fun k => (reportName k, fun y =>
        if y < ns ∨ g.years.length ≤ (y - ns).toNat then none else some (g.forc k (y - ns).toNat)))
      ++ g.prec.erf.cols.map (fun k => (reportName k, fun y => g.prec.erf.val k y)), a ∈ reportForcing g ns := fun _ h => h
  have mem1 : ∀ a ∈ g.forcKeys.map (fun k => (reportName k, fun y =>
        if y < ns ∨ g.years.length ≤ (y - ns).toNat then none else some (g'.forc k (y - ns).toNat)))
      ++ g.prec.erf.cols.map (fun k => (reportName k, fun y => g'.prec.erf.val k y)), a ∈ reportForcing g' ns := by
    intro a h
    rw [e1]
    exact h
  have glue : ∀ P : String × (ℤ → Option ℝ) → String × (ℤ → Option ℝ) → Prop,
      (∀ t ∈ g.forcKeys, P (reportName t, fun y =>
          if y < ns ∨ g.years.length ≤ (y - ns).toNat then none else some (g.forc t (y - ns).toNat))
        (reportName t, fun y =>
          if y < ns ∨ g.years.length ≤ (y - ns).toNat then none else some (g'.forc t (y - ns).toNat))) →
      (∀ t ∈ g.prec.erf.cols, P (reportName t, fun y => g.prec.erf.val t y) (reportName t, fun y => g'.prec.erf.val t y)) →
      List.Forall₂ P (reportForcing g ns) (reportForcing g' ns) := by
    intro P h1 h2
    rw [e0, e1]
    exact List.rel_append (List.forall₂_map_left_iff.2 (List.forall₂_map_right_iff.2 (List.forall₂_same.2 h1)))
      (List.forall₂_map_left_iff.2 (List.forall₂_map_right_iff.2 (List.forall₂_same.2 h2)))
  apply glue
  · intro t htm
    have ha := mem0 _ (List.mem_append_left _ (List.mem_map.2 ⟨t, htm, rfl⟩))
    have hb := mem1 _ (List.mem_append_left _ (List.mem_map.2 ⟨t, htm, rfl⟩))
    refine ⟨ha, hb, rfl, fun q1 q2 q3 => ?_⟩
    have back : ∀ s, s ≠ "SO2" → reportName t ≠ s → t ≠ s := by
      rintro s hs e rfl
      apply e
      unfold reportName
      rw [if_neg hs]
    have q1' := back _ (by decide) q1
    have q2' := back _ (by decide) q2
    have q3' := back _ (by decide) q3
    have ht : t ∈ g.prec.spicy ∧ t ≠ "CO2.1" := by
      rw [hfk] at htm
      unfold forcKeysOf at htm
      simp only at htm
      have : t ∈ g.prec.spicy.filter (fun t => t ≠ "CO2.1") := by
        split at htm
        · exact htm
        · rcases List.mem_append.1 htm with h | h
          · exact h
          · exact absurd (List.mem_singleton.1 h) q3'
      obtain ⟨h1, h2⟩ := List.mem_filter.1 this
      exact ⟨h1, by simpa using h2⟩
    obtain ⟨ht, ht1⟩ := ht
    rw [hsp] at ht
    obtain ⟨htk, h2⟩ := List.mem_filter.1 ht
    simp only [decide_eq_true_eq] at h2
    obtain ⟨x, hxt⟩ := (get?_isSome_iff _ _).2 htk
    have hY : Yearly i.gas t := by
      refine ⟨x, hxt, ?_, h2.2, ht1⟩
      by_contra hcon
      rw [not_or, not_or, not_or] at hcon
      exact h2.1 ((mem_vanilla hgas hvg t).2 ⟨x, hxt, hcon.1, hcon.2.1, hcon.2.2.1, hcon.2.2.2⟩)
    obtain ⟨c, hc, c', hc', k1, k2, v, w1, w2⟩ := C97_forcing R R' ho hne U.n2o U.ch4 U.ozone hY q1' q2'
      (forcReach_co2 (hK _ htk)) hy1 hy2
    rw [pick nd' hb hc' (by rw [k2]; rfl), pick nd ha hc (by rw [k1]; rfl), w1, w2]
  · intro t htm
    refine ⟨mem0 _ (List.mem_append_right _ (List.mem_map.2 ⟨t, htm, rfl⟩)),
      mem1 _ (List.mem_append_right _ (List.mem_map.2 ⟨t, htm, rfl⟩)), rfl, fun _ _ _ => ?_⟩
    exact hval t htm y hy1 hy2

/-- The two effects of more CO2 together are not negative. -/
theorem co2_not_negative (R : Ran cops tops i pamset ps p luc ns es ne g) (R' : Ran cops' tops' i' pamset ps p luc ns es ne g')
    (ho : OnlyEmissionsOf co2Species i i') (hne : es < ne) (U : UsualGases i.gas)
    (hm : MoreCo2 (reportedConc g) (reportedConc g') ns ne) (hsn : 0 ≤ sn) (hsc : sn ≤ 1.5 * sc) {y : ℤ} (hy1 : ns ≤ y)
    (hy2 : y ≤ ne) :
    0 ≤ co2Effect sc (reportedConc g) (reportedConc g') ns y + overlapEffect sn (reportedConc g) (reportedConc g') ns y := by
  have same : ∀ k ∈ ["N2O", "CH4"], ∀ z, ns ≤ z → z ≤ ne → reportedConc g' k z = reportedConc g k z := by
    intro k hk z h1 h2
    obtain ⟨x, hx, hu⟩ := R.gases.main k (by
      simp only [List.mem_cons, List.not_mem_nil, or_false] at hk ⊢
      tauto)
    have h0 : k ≠ "CO2" ∧ k ≠ "TROP_O3" ∧ ∀ c ∈ concReach k, c ∉ co2Species := by
      clear * - hk
      revert k
      decide
    obtain ⟨v, e1, e2⟩ := C97_conc R R' ho hne hx h0.1 (Or.inr ⟨h0.2.1, hu, by
      simp only [List.mem_cons, List.not_mem_nil, or_false] at hk
      rcases hk with rfl | rfl
      · exact U.n2o x hx
      · exact U.ch4 x hx⟩) h0.2.2 z h1 h2
    unfold reportedConc
    rw [e1, e2]
  have hnn : ns ≤ ne := hy1.trans hy2
  have key := more_co2 (t := reportedConc g)
    (t' := fun c z => if c = "CO2" then reportedConc g' c z else reportedConc g c z) (ns := ns) (ne := ne) (y := y) (sc := sc)
    (sn := sn) ⟨by simpa using hm.start, by simpa using hm.more, hm.pos, by simpa using hm.top, by simpa using hm.near, hm.n2o⟩
    (fun c hc z => by simp [hc]) hsn hsc hy1 hy2
  have e1 : co2Effect sc (reportedConc g) (fun c z => if c = "CO2" then reportedConc g' c z else reportedConc g c z) ns y
      = co2Effect sc (reportedConc g) (reportedConc g') ns y := by
    unfold co2Effect
    simp only [if_true, show ("N2O" = "CO2") = False by simp, if_false]
    rw [same "N2O" (by simp) y hy1 hy2, same "N2O" (by simp) ns le_rfl hnn]
  have e2 : overlapEffect sn (reportedConc g) (fun c z => if c = "CO2" then reportedConc g' c z else reportedConc g c z) ns y
      = overlapEffect sn (reportedConc g) (reportedConc g') ns y := by
    unfold overlapEffect
    simp only [if_true, show ("N2O" = "CO2") = False by simp, show ("CH4" = "CO2") = False by simp, if_false]
    rw [same "N2O" (by simp) y hy1 hy2, same "N2O" (by simp) ns le_rfl hnn, same "CH4" (by simp) y hy1 hy2,
      same "CH4" (by simp) ns le_rfl hnn]
  rwa [e1, e2] at key

end

/-- The weighted sum of the components when two of them move. -/
theorem weighted_shift {y : ℤ} {w : String → ℝ} (w1 : w "CO2" = 1) (w2 : w "N2O" = 1) {a b : ℝ} :
    ∀ {l l' : List (String × (ℤ → Option ℝ))},
    List.Forall₂ (fun c c' => c'.1 = c.1 ∧ (c.1 = "CO2" → ∃ v, c.2 y = some v ∧ c'.2 y = some (v + a)) ∧
      (c.1 = "N2O" → ∃ v, c.2 y = some v ∧ c'.2 y = some (v + b)) ∧
      (c.1 ≠ "CO2" → c.1 ≠ "N2O" → c.1 ≠ "Total_forcing" → c'.2 y = c.2 y)) l l' → (l.map Prod.fst).Nodup →
    ((l'.filter (fun c => c.1 ≠ "Total_forcing")).map (fun c => (c.2 y).getD 0 * w c.1)).sum =
      ((l.filter (fun c => c.1 ≠ "Total_forcing")).map (fun c => (c.2 y).getD 0 * w c.1)).sum
        + (if "CO2" ∈ l.map Prod.fst then a else 0) + (if "N2O" ∈ l.map Prod.fst then b else 0) := by
  intro l l' h
  induction h with
  | nil => intro _; simp
  | @cons x x' l l' hx _ ih =>
    intro hnd
    obtain ⟨e, h1, h2, h3⟩ := hx
    rw [List.map_cons, List.nodup_cons] at hnd
    have ih := ih hnd.2
    have hx0 := hnd.1
    rw [List.map_cons]
    by_cases hT : x.1 = "Total_forcing"
    · rw [List.filter_cons_of_neg (a := x) (by simpa using hT), List.filter_cons_of_neg (a := x') (by simpa [e] using hT), ih, hT]
      simp only [List.mem_cons, show ("CO2" = "Total_forcing") = False by simp, show ("N2O" = "Total_forcing") = False by simp,
        false_or]
    · rw [List.filter_cons_of_pos (a := x) (by simpa using hT), List.filter_cons_of_pos (a := x') (by simpa [e] using hT), List.map_cons,
        List.map_cons, List.sum_cons, List.sum_cons, ih, e]
      by_cases q1 : x.1 = "CO2"
      · obtain ⟨v, f1, f2⟩ := h1 q1
        rw [q1] at hx0
        rw [q1, f1, f2, w1, if_neg hx0, if_pos List.mem_cons_self]
        simp only [List.mem_cons, show ("N2O" = "CO2") = False by simp, false_or, Option.getD_some]
        ring
      · by_cases q2 : x.1 = "N2O"
        · obtain ⟨v, f1, f2⟩ := h2 q2
          rw [q2] at hx0
          rw [q2, f1, f2, w2, if_neg hx0, if_pos List.mem_cons_self]
          simp only [List.mem_cons, show ("CO2" = "N2O") = False by simp, false_or, Option.getD_some]
          ring
        · rw [h3 q1 q2 hT]
          simp only [List.mem_cons, show ("CO2" = x.1) = False by simpa using fun h => q1 h.symm,
            show ("N2O" = x.1) = False by simpa using fun h => q2 h.symm, false_or]
          ring

section
variable {κ τ : Type} {cops cops' : CarbonOps ℝ κ} {i i' : Inputs ℝ} {pamset : Option (Dict (PyVal ℝ))} {ps : List (RunPams ℝ)}
  {p : RunPams ℝ} {luc : List ℝ} {ns es ne : ℤ} {g g' : Handler ℝ κ} {sc sn : ℝ} {d0 d d1 d0' d' d1' : Driver ℝ κ} {t t' : τ}
  {tops : ThermalOps ℝ τ}

/-- The years of two runs, the second with more CO2. -/
theorem co2_yearsLe (R : Ran cops tops i pamset ps p luc ns es ne g) (R' : Ran cops' tops i' pamset ps p luc ns es ne g')
    (Q : RanPlain cops tops i p d0 d d1 t g) (Q' : RanPlain cops' tops i' p d0' d' d1' t' g')
    (hns : d0.nystart = ns) (hne : d0.nyend = ne) (hset : SameSetting d0 d0')
    (ho : OnlyEmissionsOf co2Species i i') (hes : es < ne) (hpert : i.pertForc = none) (U : UsualGases i.gas)
    (hx : Factors i.gas sc sn) (hm : MoreCo2 (reportedConc g) (reportedConc g') ns ne) (hsn : 0 ≤ sn) (hsc : sn ≤ 1.5 * sc)
    {ok : ℝ → Prop} (hok : ∀ w, ok w) {f f' : ℕ → YearForcing ℝ} {v v' : ℕ → Option (Dict ℝ)} (G : ForcedBy cops d d1 p f v)
    (G' : ForcedBy cops' d' d1' p f' v') : YearsLe d d' 0 ok f f' := by
  obtain ⟨hs, h, hh⟩ := Q.setting
  obtain ⟨hs', h', hh'⟩ := Q'.setting
  have S := Q.settled
  have S' := Q'.settled
  have e1 : d.nystart = ns := by rw [hs]; exact hns
  have e2 : d.nyend = ne := by rw [hs]; exact hne
  have e1' : d'.nystart = ns := by rw [hs']; exact hset.first.trans hns
  have e2' : d'.nyend = ne := by rw [hs']; exact hset.last.trans hne
  intro n hn vn vs vn' vs' x1 x2 x3 x4
  have hy1 : ns ≤ ns + (n : ℤ) := by omega
  have hy2 : ns + (n : ℤ) ≤ ne := by omega
  obtain ⟨sun, s1, s2, s3⟩ := forced_columns G hh Q.after (i := i) (by rw [e1, e2, ← hns, ← hne]; exact S) (n := n) (by omega)
  obtain ⟨sun', s1', s2', s3'⟩ := forced_columns G' hh' Q'.after (i := i')
    (by rw [e1', e2', ← hns, ← hne, ← hset.first, ← hset.last]; exact S') (n := n) (by omega)
  rw [hs] at s1 x1 x2
  rw [hs'] at s1' x3 x4
  have hsun : sun' = sun := by
    change d0'.sun[n]? = some sun' at s1'
    rw [hset.sun] at s1'
    exact (Option.some.inj (s1.symm.trans s1')).symm
  have hvn : vn' = vn := by
    change d0'.volcN[n]? = some vn' at x3
    rw [hset.north] at x3
    exact (Option.some.inj (x1.symm.trans x3)).symm
  have hvs : vs' = vs := by
    change d0'.volcS[n]? = some vs' at x4
    rw [hset.south] at x4
    exact (Option.some.inj (x2.symm.trans x4)).symm
  have hcol := C99_forcing R R' ho hes hpert U hx hy1 hy2
  have nd := ran_nodup R U.notDirect
  have hpos := co2_not_negative R R' ho hes U hm hsn hsc hy1 hy2
  have hin : ∀ c ∈ ["CO2", "N2O"], c ∈ (reportForcing g ns).map Prod.fst := by
    obtain ⟨⟨c, m1, n1, -⟩, c2, m2, n2, -⟩ := main_forcing R hpert hx hy1 hy2
    intro k hk
    simp only [List.mem_cons, List.not_mem_nil, or_false] at hk
    rcases hk with rfl | rfl
    · exact List.mem_map.2 ⟨c, m1, n1⟩
    · exact List.mem_map.2 ⟨c2, m2, n2⟩
  have same : ∀ l : List ℝ, List.Forall₂ (· ≤ ·) l l := fun l => List.forall₂_same.2 fun _ _ => le_rfl
  have cw : columnWeight "CO2" = 1 ∧ columnWeight "N2O" = 1 := by constructor <;> simp [columnWeight, nhWeight]
  refine ⟨Or.inr rfl, hok _, ?_, ?_, hvn ▸ same _, hvs ▸ same _⟩
  · rw [s2, s2', e1, e1', hsun, ho.pertForc]
    have := weighted_shift (w := columnWeight) cw.1 cw.2 hcol nd
    rw [if_pos (hin _ (by simp)), if_pos (hin _ (by simp))] at this
    unfold componentColumns
    rw [this]
    linarith
  · rw [s3, s3', e1, e1', hsun, ho.pertForc]
    have := weighted_shift (w := fun c => 2 - columnWeight c) (by rw [cw.1]; norm_num) (by rw [cw.2]; norm_num) hcol nd
    rw [if_pos (hin _ (by simp)), if_pos (hin _ (by simp))] at this
    unfold componentColumns
    rw [this]
    linarith

end

section
variable {κ : Type} {cops cops' : CarbonOps ℝ κ} {i i' : Inputs ℝ} {pamset : Option (Dict (PyVal ℝ))} {ps : List (RunPams ℝ)}
  {p : RunPams ℝ} {luc : List ℝ} {ns es ne : ℤ} {g g' : Handler ℝ κ} {sc sn : ℝ} {d0 d d1 d0' d' d1' : Driver ℝ κ}

/-- **C99**, two-layer model without a state dependent feedback. Two emission-driven runs whose inputs differ in the emissions of
CO2 only, with any carbon cycles: if the second reports no less CO2 in any year, it reports no lower temperature and no smaller
heat content in any year, although the forcing of N2O is smaller. -/
theorem C99_warms_two_layer {t t' : TwoLayer.Pams ℝ × TwoLayer.State ℝ}
    (R : Ran cops twoLayerOps i pamset ps p luc ns es ne g) (R' : Ran cops' twoLayerOps i' pamset ps p luc ns es ne g')
    (Q : RanPlain cops twoLayerOps i p d0 d d1 t g) (Q' : RanPlain cops' twoLayerOps i' p d0' d' d1' t' g')
    (hns : d0.nystart = ns) (hne : d0.nyend = ne) (hset : SameSetting d0 d0')
    (ho : OnlyEmissionsOf co2Species i i') (hes : es < ne) (hpert : i.pertForc = none) (U : UsualGases i.gas)
    (hx : Factors i.gas sc sn) (hm : MoreCo2 (reportedConc g) (reportedConc g') ns ne) (hsn : 0 ≤ sn) (hsc : sn ≤ 1.5 * sc)
    {q : TwoLayer.Pams ℝ} (hq : twoLayerPams (cutAndCheckPamset twoLayerRequired (p.udm.getD []) []) = .ok q)
    (hq0 : q.delta_lambda_aero = 0) (hsmall : SmallSteps q.mixed q.deep q.k q.ocean_efficacy q.lambda)
    (hf0 : 0 ≤ q.foan + q.foas) (hf2 : q.foan + q.foas ≤ 2) :
    ∀ o ∈ ["dT_glob", "dT_fast", "dT_slow", "OHC_MIXED", "OHC_DEEP", "OHC700", "OHCTOT"],
      ∀ n : ℕ, ns + n ≤ ne → EntryLe d1.results d1'.results o n := by
  obtain ⟨hs, -⟩ := Q.setting
  obtain ⟨hs', -⟩ := Q'.setting
  have e1 : d.nystart = ns := by rw [hs]; exact hns
  have e2 : d.nyend = ne := by rw [hs]; exact hne
  have e1' : d'.nystart = ns := by rw [hs']; exact hset.first.trans hns
  have e2' : d'.nyend = ne := by rw [hs']; exact hset.last.trans hne
  have key := order_two_layer Q.ran Q'.ran rfl hq hf0 hf2 (by rw [e1, e1']) (by rw [e2, e2']) (by
    intro f f' v v' G G'
    rw [hq0]
    exact co2_yearsLe R R' Q Q' hns hne hset ho hes hpert U hx hm hsn hsc
      (by intro w; rw [mul_zero, add_zero]; exact hsmall) G G')
  rw [e1', e2'] at key
  exact key

/-- **C99**, diffusion model with constant upwelling in the physical range and without a state dependent feedback. -/
theorem C99_warms_diffusion {solve : UDM.Solver ℝ} (hsol : Exact solve) {t t' : UDM.Model ℝ}
    (R : Ran cops (udmOps solve) i pamset ps p luc ns es ne g) (R' : Ran cops' (udmOps solve) i' pamset ps p luc ns es ne g')
    (Q : RanPlain cops (udmOps solve) i p d0 d d1 t g) (Q' : RanPlain cops' (udmOps solve) i' p d0' d' d1' t' g')
    (hns : d0.nystart = ns) (hne : d0.nyend = ne) (hset : SameSetting d0 d0')
    (ho : OnlyEmissionsOf co2Species i i') (hes : es < ne) (hpert : i.pertForc = none) (U : UsualGases i.gas)
    (hx : Factors i.gas sc sn) (hm : MoreCo2 (reportedConc g) (reportedConc g') ns ne) (hsn : 0 ≤ sn) (hsc : sn ≤ 1.5 * sc)
    {q : UDM.Pams ℝ} (hq : udmPams (cutAndCheckPamset udmRequired (p.udm.getD []) []) = .ok q) (hph : Physical q)
    (hth : q.threstemp = 0) (hord : Ordered q q.W) (hg : Gentle q q.W) (hn1 : q.foan ≤ 1) (hs1 : q.foas ≤ 1)
    (h700 : q.mixed ≤ 700) (hq0 : q.delta_lambda_aero = 0) (hfb : 0 < q.lambda) :
    ∀ o ∈ ["dT_glob", "dT_NH", "dT_SH", "dT_glob_air", "dT_NH_air", "dT_SH_air", "dT_glob_sea", "dT_NH_sea", "dT_SHsea",
        "OHC700", "OHCTOT"],
      ∀ n : ℕ, ns + n ≤ ne → EntryLe d1.results d1'.results o n := by
  obtain ⟨hs, -⟩ := Q.setting
  obtain ⟨hs', -⟩ := Q'.setting
  have e1 : d.nystart = ns := by rw [hs]; exact hns
  have e2 : d.nyend = ne := by rw [hs]; exact hne
  have e1' : d'.nystart = ns := by rw [hs']; exact hset.first.trans hns
  have e2' : d'.nyend = ne := by rw [hs']; exact hset.last.trans hne
  have key := order_diffusion hsol Q.ran Q'.ran rfl hq hph hth hord hg hn1 hs1 h700 (by rw [e1, e1']) (by rw [e2, e2']) (by
    intro f f' v v' G G'
    rw [hq0]
    exact co2_yearsLe R R' Q Q' hns hne hset ho hes hpert U hx hm hsn hsc (by intro w; simpa [feedback, hq0] using hfb) G G')
  rw [e1', e2'] at key
  exact key

end

/-! ## The box carbon cycle -/

/-- One year of the box carbon cycle without temperature effects keeps the order of the pools. -/
theorem box_step_le {P : Box.Pams ℝ} {lo : ℝ}
    (B : CalmBox P.beta_f P.vegetation_to_soil_fraction P.soil_respiration_rate P.ocean_solubility_base lo)
    (hl : P.land_temp_sensitivity = 0) (ht : P.ocean_solubility_temp_coeff = 0) {s s' : Box.State ℝ} {e e' : ℝ}
    {T T' : Option ℝ} (hlo : lo ≤ s.atmospheric_co2) (h1 : s.atmospheric_co2 ≤ s'.atmospheric_co2)
    (h2 : s.vegetation_carbon ≤ s'.vegetation_carbon) (h3 : s.soil_carbon ≤ s'.soil_carbon) (he : e ≤ e') :
    (Box.co2em2conc P s e T).atmospheric_co2 ≤ (Box.co2em2conc P s' e' T').atmospheric_co2 ∧
    (Box.co2em2conc P s e T).vegetation_carbon ≤ (Box.co2em2conc P s' e' T').vegetation_carbon ∧
    (Box.co2em2conc P s e T).soil_carbon ≤ (Box.co2em2conc P s' e' T').soil_carbon := by
  obtain ⟨b0, ⟨v0, v1⟩, ⟨r0, r1⟩, l0, -, up⟩ := B
  have c0 : 0 < s.atmospheric_co2 := lt_of_lt_of_le l0 hlo
  have c0' : 0 < s'.atmospheric_co2 := lt_of_lt_of_le c0 h1
  have hlog : Real.log (s.atmospheric_co2 / 278) ≤ Real.log (s'.atmospheric_co2 / 278) :=
    Real.log_le_log (by positivity) (by linarith)
  have hlog2 : Real.log (s'.atmospheric_co2 / 278) - Real.log (s.atmospheric_co2 / 278)
      ≤ (s'.atmospheric_co2 - s.atmospheric_co2) / lo := by
    rw [Real.log_div c0'.ne' (by norm_num), Real.log_div c0.ne' (by norm_num)]
    have := Real.log_le_sub_one_of_pos (div_pos c0' c0)
    rw [Real.log_div c0'.ne' c0.ne'] at this
    have e : s'.atmospheric_co2 / s.atmospheric_co2 - 1 = (s'.atmospheric_co2 - s.atmospheric_co2) / s.atmospheric_co2 := by
      field_simp
    have : (s'.atmospheric_co2 - s.atmospheric_co2) / s.atmospheric_co2 ≤ (s'.atmospheric_co2 - s.atmospheric_co2) / lo :=
      div_le_div_of_nonneg_left (by linarith) l0 hlo
    linarith
  have hn : ∀ (c : ℝ) (T : ℝ), Box.calculateNpp P c T = max 0 (60 + P.beta_f * Real.log (c / 278)) := by
    intro c T
    unfold Box.calculateNpp
    simp only [hl]
    rw [max_def]
    norm_num
    split_ifs with a b b
    all_goals first | rfl | linarith
  have hu : ∀ (c : ℝ) (T : ℝ), Box.calculateOceanUptake P c T = P.ocean_solubility_base * (c - 278) := by
    intro c T
    unfold Box.calculateOceanUptake
    simp only [ht]
    norm_num
  have np1 : max 0 (60 + P.beta_f * Real.log (s.atmospheric_co2 / 278))
      ≤ max 0 (60 + P.beta_f * Real.log (s'.atmospheric_co2 / 278)) :=
    max_le_max le_rfl (by nlinarith)
  have np2 : max 0 (60 + P.beta_f * Real.log (s'.atmospheric_co2 / 278))
      ≤ max 0 (60 + P.beta_f * Real.log (s.atmospheric_co2 / 278))
        + P.beta_f * ((s'.atmospheric_co2 - s.atmospheric_co2) / lo) := by
    have q : 0 ≤ P.beta_f * ((s'.atmospheric_co2 - s.atmospheric_co2) / lo) :=
      mul_nonneg b0 (div_nonneg (by linarith) l0.le)
    have q2 : P.beta_f * (Real.log (s'.atmospheric_co2 / 278) - Real.log (s.atmospheric_co2 / 278))
        ≤ P.beta_f * ((s'.atmospheric_co2 - s.atmospheric_co2) / lo) := mul_le_mul_of_nonneg_left hlog2 b0
    apply max_le
    · exact add_nonneg (le_max_left _ _) q
    · have := le_max_right 0 (60 + P.beta_f * Real.log (s.atmospheric_co2 / 278))
      linarith
  have up2 : (P.ocean_solubility_base + P.beta_f / lo) * (s'.atmospheric_co2 - s.atmospheric_co2)
      ≤ 2.123 * (s'.atmospheric_co2 - s.atmospheric_co2) := mul_le_mul_of_nonneg_right up (by linarith)
  have up3 : P.beta_f / lo * (s'.atmospheric_co2 - s.atmospheric_co2)
      = P.beta_f * ((s'.atmospheric_co2 - s.atmospheric_co2) / lo) := by ring
  have hr : s.soil_carbon * P.soil_respiration_rate ≤ s'.soil_carbon * P.soil_respiration_rate :=
    mul_le_mul_of_nonneg_right h3 r0
  have hr1 : s.soil_carbon * (1 - P.soil_respiration_rate) ≤ s'.soil_carbon * (1 - P.soil_respiration_rate) :=
    mul_le_mul_of_nonneg_right h3 (by linarith)
  have hv : s.vegetation_carbon * P.vegetation_to_soil_fraction ≤ s'.vegetation_carbon * P.vegetation_to_soil_fraction :=
    mul_le_mul_of_nonneg_right h2 v0
  have hv1 : s.vegetation_carbon * (1 - P.vegetation_to_soil_fraction)
      ≤ s'.vegetation_carbon * (1 - P.vegetation_to_soil_fraction) := mul_le_mul_of_nonneg_right h2 (by linarith)
  unfold Box.co2em2conc
  simp only [hn, hu, Box.ppmToPgC]
  generalize max 0 (60 + P.beta_f * Real.log (s.atmospheric_co2 / 278)) = m at *
  generalize max 0 (60 + P.beta_f * Real.log (s'.atmospheric_co2 / 278)) = m' at *
  refine ⟨?_, by norm_num; linarith, by norm_num; linarith⟩
  rw [show (1.0 : ℝ) = 1 by norm_num, mul_one, mul_one]
  have : (e - P.ocean_solubility_base * (s.atmospheric_co2 - 278) + s.soil_carbon * P.soil_respiration_rate - m) / 2.123
      - (e' - P.ocean_solubility_base * (s'.atmospheric_co2 - 278) + s'.soil_carbon * P.soil_respiration_rate - m') / 2.123
      ≤ s'.atmospheric_co2 - s.atmospheric_co2 := by
    rw [← sub_div, div_le_iff₀ (by norm_num)]
    linarith
  linarith

/-- The box carbon cycle without temperature effects, year by year. -/
theorem box_more {P : Box.Pams ℝ} {lo : ℝ}
    (B : CalmBox P.beta_f P.vegetation_to_soil_fraction P.soil_respiration_rate P.ocean_solubility_base lo)
    (hl : P.land_temp_sensitivity = 0) (ht : P.ocean_solubility_temp_coeff = 0) {E E' : ℕ → ℝ} {T T' : ℕ → Option ℝ} {N : ℕ}
    (hlo : ∀ n, n < N → lo ≤ (boxAlone P E T (n + 1)).atmospheric_co2) (he : ∀ n, n ≤ N → E n ≤ E' n) :
    ∀ n, n ≤ N + 1 → (boxAlone P E T n).atmospheric_co2 ≤ (boxAlone P E' T' n).atmospheric_co2 ∧
      (boxAlone P E T n).vegetation_carbon ≤ (boxAlone P E' T' n).vegetation_carbon ∧
      (boxAlone P E T n).soil_carbon ≤ (boxAlone P E' T' n).soil_carbon := by
  intro n
  induction n with
  | zero => intro _; exact ⟨le_rfl, le_rfl, le_rfl⟩
  | succ n ih =>
    intro hn
    obtain ⟨h1, h2, h3⟩ := ih (by omega)
    rw [boxAlone_succ, boxAlone_succ]
    refine box_step_le B hl ht ?_ h1 h2 h3 (he n (by omega))
    cases n with
    | zero =>
      have := B.start
      show lo ≤ (278.0 : ℝ)
      linarith
    | succ n => exact hlo n (by omega)

section
variable {τ τ' : Type} {tops : ThermalOps ℝ τ} {tops' : ThermalOps ℝ τ'} {i i' : Inputs ℝ}
  {pamset pamset' : Option (Dict (PyVal ℝ))} {ps ps' : List (RunPams ℝ)} {p p' : RunPams ℝ} {luc luc' : List ℝ} {ns es es' ne : ℤ}
  {g g' : Handler ℝ (BoxM ℝ)}

/-- The CO2 a run with the box carbon cycle reports: that of the box carbon cycle with the emissions used. -/
theorem ran_box (R : Ran boxOps tops i pamset ps p luc ns es ne g) (hout : (tops.outputs.map Prod.fst ++ forcOutputList).Nodup)
    {x : Gas ℝ} (hx : i.gas.get? "CO2" = some x) : ∃ (P : Box.Pams ℝ) (E : ℕ → ℝ) (T : ℕ → Option ℝ), boxPams g.carbon = .ok P ∧
      (∀ n : ℕ, ns + n ≤ ne → E n = usedEmis i "CO2_FF" (ns + n) + usedEmis i "CO2_AFOLU" (ns + n) + x.natEm) ∧
      ∀ n : ℕ, ns + n ≤ ne → concOf g "CO2" (ns + n) = some (boxAlone P E T (n + 1)).atmospheric_co2 := by
  have cm := fun c hm => concOf_mem R (c := c) hm
  obtain ⟨x', hx', hu⟩ := R.gases.main "CO2" (by simp)
  rw [hx, Option.some.injEq] at hx'
  subst hx'
  obtain ⟨hg, hrun, ht, hp, carb, h0, d0, d, d1, t, hc, hd0, hl, rfl, rfl, ha, hr, hs⟩ := id R
  have hle := ht.nonempty
  obtain ⟨h, emis, state, fb, he, hd, h1, h2, h3, h4, c, hcm, hc1, hst⟩ :=
    C61_run yearLaw_real hg.once hout ht hc hd0 ha hr hs hrun hx hu
  obtain ⟨P, hPp, hy⟩ := box_years hle h1 hst
  have hlast := hy (d0.nyend - d0.nystart).toNat (by omega)
  rw [show d0.nystart + ((d0.nyend - d0.nystart).toNat : ℤ) + 1 = d0.nyend + 1 by omega, ← h2] at hlast
  refine ⟨P, emissionOf emis x.natEm d0.nystart, fun n => dtempIn (fb (d0.nystart + n)), by rw [hlast.1]; exact hPp, ?_, ?_⟩
  · intro n hn
    obtain ⟨ff, lu, a1, a2, a3⟩ := emissionOf_spec hst (d0.nystart + n) (by omega) hn
    rw [show (d0.nystart + (n : ℤ) - d0.nystart).toNat = n by omega] at a3
    obtain ⟨b1, b2, b3⟩ := perturbedEmis_spec he
    have at_used : ∀ c v, emis.at' c (d0.nystart + n) = .ok v → v = usedEmis i c (d0.nystart + n) := by
      intro c v e
      unfold Frame.at' at e
      split at e
      · rename_i hc
        rw [Except.ok.injEq] at e
        rw [← e, b3 c _ (by rw [← b2]; exact hc.2)]
      · cases e
    rw [a3, at_used _ _ a1, at_used _ _ a2]
  · intro n hn
    rw [← (hy n hn).2, ← cm c hcm, hc1]

/-- **C99**, box carbon cycle without temperature effects. Two emission-driven runs of any inputs, parameters, histories and
thermal models with the same carbon cycle parameters: if in no year the second emits less CO2 (both emissions together with their
perturbations and the natural emissions), it reports no less CO2 in any year. -/
theorem C99_box_more (R : Ran boxOps tops i pamset ps p luc ns es ne g) (R' : Ran boxOps tops' i' pamset' ps' p' luc' ns es' ne g')
    (hout : (tops.outputs.map Prod.fst ++ forcOutputList).Nodup) (hout' : (tops'.outputs.map Prod.fst ++ forcOutputList).Nodup)
    {P : Box.Pams ℝ} (hP : boxPams g.carbon = .ok P) (hP' : boxPams g'.carbon = .ok P) {lo : ℝ}
    (B : CalmBox P.beta_f P.vegetation_to_soil_fraction P.soil_respiration_rate P.ocean_solubility_base lo)
    (hl : P.land_temp_sensitivity = 0) (ht : P.ocean_solubility_temp_coeff = 0)
    (hlo : ∀ y, ns ≤ y → y < ne → lo ≤ reportedConc g "CO2" y) {x x' : Gas ℝ} (hx : i.gas.get? "CO2" = some x)
    (hx' : i'.gas.get? "CO2" = some x')
    (he : ∀ y, ns ≤ y → y ≤ ne → usedEmis i "CO2_FF" y + usedEmis i "CO2_AFOLU" y + x.natEm
      ≤ usedEmis i' "CO2_FF" y + usedEmis i' "CO2_AFOLU" y + x'.natEm) :
    ∀ y, ns ≤ y → y ≤ ne → ∃ v v', concOf g "CO2" y = some v ∧ concOf g' "CO2" y = some v' ∧ v ≤ v' := by
  obtain ⟨P1, E, T, q1, e1, c1⟩ := ran_box R hout hx
  obtain ⟨P2, E', T', q2, e2, c2⟩ := ran_box R' hout' hx'
  rw [hP, Except.ok.injEq] at q1
  rw [hP', Except.ok.injEq] at q2
  subst q1
  subst q2
  intro y h1 h2
  obtain ⟨n, rfl⟩ : ∃ n : ℕ, y = ns + n := ⟨(y - ns).toNat, by omega⟩
  refine ⟨_, _, c1 n h2, c2 n h2, (box_more B hl ht (N := n) ?_ ?_ (n + 1) le_rfl).1⟩
  · intro m hm
    have := hlo (ns + m) (by omega) (by omega)
    unfold reportedConc at this
    rwa [c1 m (by omega)] at this
  · intro m hm
    rw [e1 m (by omega), e2 m (by omega)]
    exact he (ns + m) (by omega) (by omega)

/-- The concentration of the first year depends on the emissions of that year only. -/
theorem box_first (R : Ran boxOps tops i pamset ps p luc ns es ne g) (hout : (tops.outputs.map Prod.fst ++ forcOutputList).Nodup)
    {P : Box.Pams ℝ} (hP : boxPams g.carbon = .ok P) {x : Gas ℝ} (hx : i.gas.get? "CO2" = some x) :
    ∃ T, concOf g "CO2" ns = some (Box.co2em2conc P Box.reset
      (usedEmis i "CO2_FF" ns + usedEmis i "CO2_AFOLU" ns + x.natEm) T).atmospheric_co2 := by
  obtain ⟨P1, E, T, q1, e1, c1⟩ := ran_box R hout hx
  rw [hP, Except.ok.injEq] at q1
  subst q1
  have hle := R.tables.nonempty
  have h := c1 0 (by simpa using hle)
  have h2 := e1 0 (by simpa using hle)
  simp only [Nat.cast_zero, add_zero] at h h2
  refine ⟨T 0, ?_⟩
  rw [h, boxAlone_succ, h2]
  rfl

end

/-! ## The hypotheses are met -/

section
open Verif.Exec Verif.Lemmas.Tridiag
variable {τ : Type}

theorem calm_box : CalmBox calmPams.beta_f calmPams.vegetation_to_soil_fraction calmPams.soil_respiration_rate
    calmPams.ocean_solubility_base 200 := by
  constructor <;> norm_num [calmPams]

/-- The parameters of the last run are in force. -/
theorem calm_pams {i : Inputs ℝ} {carb : Option (Dict (PyVal ℝ))} {tops : ThermalOps ℝ τ} {h0 g : Handler ℝ (BoxM ℝ)}
    {ps : List (RunPams ℝ)} {d d1 : Driver ℝ (BoxM ℝ)} {t : τ} {udm em : Option (Dict (PyVal ℝ))}
    (ht : RunTables i.concIn i.emis (Dict.set (Factory.checkPamset richPam) "conc_run" (.bool i.concRun)) 1998 2000 2003)
    (hc : construct boxOps i richPam carb = .ok h0) (ha : After boxOps tops (richDriver h0) ps d)
    (hr : run boxOps tops d ⟨udm, em, some calmSet⟩ = .ok (d1, t)) (hg : d1.source = .handler g)
    (hout : (tops.outputs.map Prod.fst ++ forcOutputList).Nodup) (hgas : i.gas.keys.Nodup) (hrun : i.concRun = false)
    {x : Gas ℝ} (hx : i.gas.get? "CO2" = some x) (hu : x.concUnit ≠ "-") : boxPams g.carbon = .ok calmPams := by
  obtain ⟨h, emis, state, fb, he, hd, h1, h2, h3, h4, c, hcm, hc1, hst⟩ :=
    C61_run (d0 := richDriver h0) yearLaw_real hgas hout ht hc rfl ha hr hg hrun hx hu
  obtain ⟨P, hPp, hy⟩ := box_years (by simp [richDriver]) h1 hst
  have hlast := (hy 5 (by simp [richDriver])).1
  have hk : BoxFit h.carbon := (box_kept_after yearLaw_real hc (d0 := richDriver h0) rfl ha hd).1
  have e3 : g.carbon.pam = (state (richDriver h0).nystart).pam := by
    rw [h2]
    have : (richDriver h0).nyend + 1 = (richDriver h0).nystart + ((5 : ℕ) : ℤ) + 1 := rfl
    rw [this, hlast]
  simp only [boxOps, boxReset, Except.ok.injEq] at h1
  have w : WF calmSet := by
    simp only [calmSet, WF, Dict.keys, List.map_cons, List.map_nil]
    decide
  have val : ∀ k v, (k, v) ∈ calmSet → get? g.carbon.pam k = some v := by
    intro k v hm
    rw [e3, ← h1]
    simp only [updatePamIfNumeric]
    rw [get?_updatePam_foldl _ w, get?_of_mem w hm]
    simp only
    have hk1 : k ∈ (boxRequired (F := ℝ)).keys := by
      simp only [calmSet, List.mem_cons, Prod.mk.injEq, List.not_mem_nil, or_false] at hm
      rcases hm with ⟨rfl, -⟩ | ⟨rfl, -⟩ | ⟨rfl, -⟩ | ⟨rfl, -⟩ | ⟨rfl, -⟩ | ⟨rfl, -⟩ | ⟨rfl, -⟩ | ⟨rfl, -⟩ <;>
        simp [boxRequired, Dict.keys]
    obtain ⟨v0, q1, -⟩ := hk k hk1
    have hn : v.isNum = true := by
      simp only [calmSet, List.mem_cons, Prod.mk.injEq, List.not_mem_nil, or_false] at hm
      rcases hm with ⟨-, rfl⟩ | ⟨-, rfl⟩ | ⟨-, rfl⟩ | ⟨-, rfl⟩ | ⟨-, rfl⟩ | ⟨-, rfl⟩ | ⟨-, rfl⟩ | ⟨-, rfl⟩ <;> rfl
    rw [if_pos ⟨hk1, (get?_isSome_iff _ _).1 ⟨v0, q1⟩, hn⟩]
  have num : ∀ k (v : ℝ), (k, PyVal.flt v) ∈ calmSet → pamF g.carbon.pam k = .ok v := by
    intro k v hm
    have := val k _ hm
    unfold pamF Dict.getE
    rw [this]
    rfl
  unfold boxPams
  rw [num "beta_f" 0.287 (by simp [calmSet]), num "land_temp_sensitivity" 0 (by simp [calmSet]),
    num "soil_respiration_rate" 0.02 (by simp [calmSet]), num "ocean_mixed_layer_depth" 25 (by simp [calmSet]),
    num "ocean_exchange_rate" 0.01 (by simp [calmSet]), num "vegetation_to_soil_fraction" 0.1 (by simp [calmSet]),
    num "ocean_solubility_base" 0.02 (by simp [calmSet]), num "ocean_solubility_temp_coeff" 0 (by simp [calmSet])]
  rfl

/-- The pools stay in a range. -/
theorem calm_range {E : ℕ → ℝ} {T : ℕ → Option ℝ} (hE : ∀ n < 6, 16 ≤ E n ∧ E n ≤ 32) : ∀ n : ℕ, n ≤ 6 →
    (278 ≤ (boxAlone calmPams E T n).atmospheric_co2 ∧ (boxAlone calmPams E T n).atmospheric_co2 ≤ 278 + 17 * n) ∧
    (590 ≤ (boxAlone calmPams E T n).vegetation_carbon ∧ (boxAlone calmPams E T n).vegetation_carbon ≤ 610) ∧
    2950 ≤ (boxAlone calmPams E T n).soil_carbon ∧ (boxAlone calmPams E T n).soil_carbon ≤ 3050 := by
  intro n
  induction n with
  | zero =>
    intro _
    simp only [boxAlone, Box.run, List.range_zero, List.map_nil, List.foldl_nil, Box.reset]
    norm_num
  | succ n ih =>
    intro hn
    obtain ⟨⟨c1, c2⟩, ⟨v1, v2⟩, s1, s2⟩ := ih (by omega)
    obtain ⟨e1, e2⟩ := hE n (by omega)
    have hn6 : (n : ℝ) ≤ 5 := by exact_mod_cast (by omega : n ≤ 5)
    rw [boxAlone_succ]
    generalize boxAlone calmPams E T n = b at *
    have l1 : 0 ≤ Real.log (b.atmospheric_co2 / 278) := Real.log_nonneg (by rw [le_div_iff₀ (by norm_num)]; linarith)
    have l2 : Real.log (b.atmospheric_co2 / 278) ≤ 1 := by
      have := Real.log_le_sub_one_of_pos (show 0 < b.atmospheric_co2 / 278 by positivity)
      have : b.atmospheric_co2 / 278 ≤ 2 := by rw [div_le_iff₀ (by norm_num)]; linarith
      linarith
    have hnpp : ∀ T : ℝ, Box.calculateNpp calmPams b.atmospheric_co2 T = 60 + 0.287 * Real.log (b.atmospheric_co2 / 278) := by
      intro T
      unfold Box.calculateNpp calmPams
      norm_num
      intro h
      linarith
    unfold Box.co2em2conc
    simp only [hnpp, Box.calculateOceanUptake, Box.ppmToPgC]
    generalize Real.log (b.atmospheric_co2 / 278) = L at *
    push_cast
    unfold calmPams
    norm_num
    refine ⟨⟨?_, ?_⟩, ⟨?_, ?_⟩, ?_, ?_⟩ <;> linarith

/-- A run of the later inputs with everything the theorems ask for. -/
structure LaterRan (tops : ThermalOps ℝ τ) (udm : Option (Dict (PyVal ℝ))) (s : ℝ) (ps : List (RunPams ℝ))
    (h0 : Handler ℝ (BoxM ℝ)) (d d1 : Driver ℝ (BoxM ℝ)) (t : τ) (g : Handler ℝ (BoxM ℝ)) : Prop where
  ran : Ran boxOps tops (laterInputs s) richPam ps ⟨udm, none, some calmSet⟩ [2, 3, 3, 3, 3, 3] 1998 2000 2003 g
  plain : RanPlain boxOps tops (laterInputs s) ⟨udm, none, some calmSet⟩ (richDriver h0) d d1 t g
  pams : boxPams g.carbon = .ok calmPams

theorem later_ran {tops : ThermalOps ℝ τ} (hout : (tops.outputs.map Prod.fst ++ forcOutputList).Nodup)
    {udm : Option (Dict (PyVal ℝ))} {s : ℝ} {ps : List (RunPams ℝ)} {h0 : Handler ℝ (BoxM ℝ)} {d d1 : Driver ℝ (BoxM ℝ)} {t : τ}
    (hc : construct boxOps (laterInputs s) richPam none = .ok h0) (ha : After boxOps tops (richDriver h0) ps d)
    (hr : run boxOps tops d ⟨udm, none, some calmSet⟩ = .ok (d1, t)) (hj : ∀ q ∈ ps, "just_one" ∉ (q.emiconc.getD []).keys) :
    ∃ g, LaterRan tops udm s ps h0 d d1 t g := by
  obtain ⟨p1, p2, p3, -⟩ := rich_pams
  obtain ⟨h, hd, -⟩ := after_spec yearLaw_real (rfl : (richDriver h0).source = .handler h0) ha (fun _ => True)
      trivial (fun _ _ _ _ _ _ _ => trivial) (fun _ _ _ _ _ _ => trivial)
  obtain ⟨g0, g, -, hg, -⟩ := run_handler_spec hd hr
  have ht := (later_tables s).run p1 p2 p3
  have hx : (laterInputs s).gas.get? "CO2" = some ⟨"ppm", 1, 2, 1, 0, 0, 0, 1⟩ := rfl
  refine ⟨g, ⟨rich_gases, rfl, ht, (later_tables s).concCols, none, h0, richDriver h0, d, d1, t, hc, rfl, rfl, rfl, rfl, ha, hr, hg⟩,
    ⟨rich_gases.once, rich_gases.notTotal, ?_, ?_, hr, hg, richPam, none, 2000, ps, h0, ht, hc, rfl, ha, by decide, ?_⟩,
    calm_pams ht hc ha hr hg hout rich_gases.once rfl hx (by decide)⟩
  · simp [laterInputs, emisInputs, richInputs, richGas, Dict.keys]
  · intro k x hx hu
    have := rich_conc ⟨x, hx, hu⟩
    simp only [List.mem_cons, List.not_mem_nil, or_false] at this
    rcases this with rfl | rfl | rfl | rfl <;> simp [nhWeight]
  · intro q hq
    rcases List.mem_append.1 hq with hq | hq
    · exact hj q hq
    · rw [List.mem_singleton] at hq
      subst hq
      simp [Dict.keys]

/-- The third of three runs, two-layer model. -/
theorem later_case (s : ℝ) : ∃ h0 d d1 t g, LaterRan twoLayerOps none s (richRuns.take 2) h0 d d1 t g := by
  obtain ⟨h1, h2, h3, -, h5⟩ := rich_pams
  obtain ⟨h0, hc, h⟩ := C63_box (carb := none) yearLaw_real (i := laterInputs s) rich_gases (later_tables s) h1 h2 h3
    (.absent (by decide))
  obtain ⟨d1, hd⟩ := h (richDriver h0) (richRuns.take 2 ++ [⟨none, none, some calmSet⟩]) rfl rfl rfl (rich_series h0) (by
    intro p hp
    simp only [richRuns, List.take, List.cons_append, List.nil_append, List.mem_cons, List.not_mem_nil, or_false] at hp
    rcases hp with rfl | rfl | rfl
    · exact ⟨h5, .absent (by decide)⟩
    · exact ⟨rfl, .absent (by simp [Dict.keys])⟩
    · exact ⟨h5, .absent (by decide)⟩)
  obtain ⟨d, t, ha, hr⟩ := after_snoc hd
  obtain ⟨g, hg⟩ := later_ran twoLayer_names hc ha hr (by
    intro q hq
    simp only [richRuns, List.take, List.mem_cons, List.not_mem_nil, or_false] at hq
    rcases hq with rfl | rfl <;> simp [Dict.keys])
  exact ⟨h0, d, d1, t, g, hg⟩

/-- A run with the diffusion model. -/
theorem later_diffusion (s : ℝ) : ∃ h0 d d1 t g, LaterRan (udmOps exactSolver) (some flatSet) s [] h0 d d1 t g := by
  obtain ⟨h1, h2, h3, -, h5⟩ := rich_pams
  obtain ⟨h0, hc, h⟩ := C63_completes (tops := udmOps exactSolver) (carb := none) yearLaw_real (i := laterInputs s) rich_gases
    (later_tables s) h1 h2 h3 (.absent (by decide)) (box_creates _ _) (box_resets _) (box_works 1998 2003)
  obtain ⟨d1, hd⟩ := h (richDriver h0) ([] ++ [⟨some flatSet, none, some calmSet⟩]) rfl rfl rfl (rich_series h0) (by
    intro p hp
    simp only [List.nil_append, List.mem_singleton] at hp
    subst hp
    exact ⟨udm_works exactSolver_exact flat_set flat_safe, box_resets _, h5, .absent (by decide)⟩)
  obtain ⟨d, t, ha, hr⟩ := after_snoc hd
  obtain ⟨g, hg⟩ := later_ran udm_names hc ha hr (by simp)
  exact ⟨h0, d, d1, t, g, hg⟩

theorem later_used (s : ℝ) (y : ℤ) : usedEmis (laterInputs s) "CO2_FF" y + usedEmis (laterInputs s) "CO2_AFOLU" y + 0 =
    2 * ((y - 1990 : ℤ) : ℝ) + (if 1998 < y then s else 0) + (if 2001 = y then 3 else 0) := by
  have h1 : usedEmis (laterInputs s) "CO2_AFOLU" y = ((y - 1990 : ℤ) : ℝ) := by
    simp [usedEmis, laterInputs, emisInputs, richInputs, emissionTarget]
  have h2 : usedEmis (laterInputs s) "CO2_FF" y = ((y - 1990 : ℤ) : ℝ) + (if 1998 < y then s else 0) +
      (if 2001 = y then 3 else 0) := by
    by_cases h : 2001 = y <;> simp [usedEmis, laterInputs, emisInputs, richInputs, emissionTarget, h]
  rw [h1, h2]
  ring

theorem later_usual (s : ℝ) : UsualGases (laterInputs s).gas where
  n2o := by
    intro x hx
    change some _ = some x at hx
    rw [Option.some.injEq] at hx
    subst hx
    norm_num
  ch4 := by
    intro x hx
    change some _ = some x at hx
    rw [Option.some.injEq] at hx
    subst hx
    norm_num
  ozone := by
    intro x hx
    change some _ = some x at hx
    rw [Option.some.injEq] at hx
    subst hx
    rfl
  names := by
    intro c hc
    simp only [co2Species, List.mem_cons, List.not_mem_nil, or_false] at hc
    rcases hc with rfl | rfl <;> simp [laterInputs, emisInputs, richInputs, richGas, Dict.keys]
  notDirect := by simp [laterInputs, emisInputs, richInputs, richGas, Dict.keys]

theorem later_factors (s : ℝ) : Factors (laterInputs s).gas 1 1 := ⟨⟨_, rfl, rfl⟩, _, rfl, rfl⟩

/-- What the runs report is in the range of the theorems. -/
theorem later_more {tops : ThermalOps ℝ τ} (hout : (tops.outputs.map Prod.fst ++ forcOutputList).Nodup)
    {udm : Option (Dict (PyVal ℝ))} {ps : List (RunPams ℝ)} {h0 h0' g g' : Handler ℝ (BoxM ℝ)} {d d1 d' d1' : Driver ℝ (BoxM ℝ)}
    {t t' : τ} (L : LaterRan tops udm 0 ps h0 d d1 t g) (L' : LaterRan tops udm 2 ps h0' d' d1' t' g') :
    MoreCo2 (reportedConc g) (reportedConc g') 1998 2003 := by
  have hx : ∀ s, (laterInputs s).gas.get? "CO2" = some ⟨"ppm", 1, 2, 1, 0, 0, 0, 1⟩ := fun _ => rfl
  have range : ∀ {s : ℝ} {h0 g : Handler ℝ (BoxM ℝ)} {d d1 : Driver ℝ (BoxM ℝ)} {t : τ}, 0 ≤ s → s ≤ 2 →
      LaterRan tops udm s ps h0 d d1 t g → ∀ y, 1998 ≤ y → y ≤ 2003 →
        278 ≤ reportedConc g "CO2" y ∧ reportedConc g "CO2" y ≤ 380 := by
    intro s h0 g d d1 t s0 s2 L y h1 h2
    obtain ⟨P, E, T, q1, e1, c1⟩ := ran_box L.ran hout (hx s)
    rw [L.pams, Except.ok.injEq] at q1
    subst q1
    obtain ⟨n, rfl⟩ : ∃ n : ℕ, y = 1998 + n := ⟨(y - 1998).toNat, by omega⟩
    have hr := calm_range (E := E) (T := T) (by
      intro m hm
      rw [e1 m (by omega), show (⟨"ppm", 1, 2, 1, 0, 0, 0, 1⟩ : Gas ℝ).natEm = 0 from rfl, later_used]
      interval_cases m <;> norm_num <;> constructor <;> linarith) (n + 1) (by omega)
    unfold reportedConc
    rw [c1 n h2]
    obtain ⟨⟨a, b⟩, -⟩ := hr
    refine ⟨a, le_trans b ?_⟩
    have : ((n + 1 : ℕ) : ℝ) ≤ 6 := by exact_mod_cast (by omega : n + 1 ≤ 6)
    linarith
  have r := range le_rfl (by norm_num) L
  have r' := range (by norm_num) le_rfl L'
  refine ⟨?_, ?_, fun y h1 h2 => by linarith [(r y h1 h2).1], fun y h1 h2 => by linarith [(r' y h1 h2).2], ?_, ?_⟩
  · obtain ⟨T, e⟩ := box_first L.ran hout L.pams (hx 0)
    obtain ⟨T', e'⟩ := box_first L'.ran hout L'.pams (hx 2)
    unfold reportedConc
    rw [e, e']
    simp only [later_used, show (⟨"ppm", 1, 2, 1, 0, 0, 0, 1⟩ : Gas ℝ).natEm = 0 from rfl]
    simp [Box.co2em2conc, Box.calculateNpp, Box.calculateOceanUptake, Box.reset, calmPams]
  · intro y h1 h2
    obtain ⟨v, v', e, e', h⟩ := C99_box_more L.ran L'.ran hout hout L.pams L'.pams calm_box rfl rfl
      (fun y h1 h2 => by linarith [(r y h1 h2.le).1]) (hx 0) (hx 2) (by
        intro z a1 a2
        simp only [later_used, show (⟨"ppm", 1, 2, 1, 0, 0, 0, 1⟩ : Gas ℝ).natEm = 0 from rfl]
        split_ifs <;> linarith) y h1 h2
    unfold reportedConc
    rw [e, e']
    exact h
  · intro y h1 h2
    have a := r y h1 h2
    have b := r 1998 le_rfl (by decide)
    have c := r' y h1 h2
    constructor <;> rw [abs_le] <;> constructor <;> linarith
  · intro y h1 h2
    obtain ⟨v, hv, ⟨D1, D2⟩⟩ := own_series L.ran (k := "N2O") (x := ⟨"ppb", 1, 4, 120, 0, 0, 0, 1⟩) (by decide) rfl (by decide)
      (by decide) (by decide) (by norm_num)
    unfold reportedConc
    rw [hv y h1 h2]
    refine years_induction (P := fun y => 0 ≤ (some (v y)).getD 0 ∧ (some (v y)).getD 0 ≤ 10000) (show (1998 : ℤ) < 2000 by decide)
      ?_ ?_ y h1 h2
    · intro z a1 a2 a3
      simp only [Option.getD_some]
      rw [D1 z a1 a2 a3]
      have b1 : (1998 : ℝ) ≤ z := by exact_mod_cast a1
      have b2 : (z : ℝ) < 2000 := by exact_mod_cast a2
      simp only [laterInputs, emisInputs, richInputs]
      push_cast
      constructor <;> linarith
    · intro z a1 a2 ih
      simp only [Option.getD_some] at ih ⊢
      obtain ⟨k1, k2⟩ := C13_between (by norm_num) (D2 z a1 a2)
      have hem : totalEmis (laterInputs 0) "N2O" z = ((z - 1990 : ℤ) : ℝ) + 10 := by
        simp [totalEmis, usedEmis, laterInputs, emisInputs, richInputs, emissionTarget]
      rw [hem] at k1 k2
      have b1 : (2000 : ℝ) ≤ z := by exact_mod_cast a1
      have b2 : (z : ℝ) ≤ 2003 := by exact_mod_cast a2
      push_cast at k1 k2
      constructor
      · exact le_trans (le_min ih.1 (by apply div_nonneg <;> norm_num; linarith)) k1
      · refine le_trans k2 (max_le ih.2 ?_)
        rw [div_le_iff₀ (by norm_num), div_le_iff₀ (by norm_num)]
        norm_num
        linarith

theorem later_setting (h0 h0' : Handler ℝ (BoxM ℝ)) : SameSetting (richDriver h0) (richDriver h0') := ⟨rfl, rfl, rfl, rfl, rfl, rfl⟩

/-- `C99_box_more`, `C99_forcing` and `C99_warms_two_layer`: the third of three runs in a row, with 2 GtC more fossil emissions
per year from 1999 on. -/
example : ∃ (h0 h0' : Handler ℝ (BoxM ℝ)) (d d' d1 d1' : Driver ℝ (BoxM ℝ)) (t t' : TwoLayer.Pams ℝ × TwoLayer.State ℝ)
    (g g' : Handler ℝ (BoxM ℝ)), LaterRan twoLayerOps none 0 (richRuns.take 2) h0 d d1 t g ∧
    LaterRan twoLayerOps none 2 (richRuns.take 2) h0' d' d1' t' g' ∧
    reportedConc g "CO2" 2001 ≤ reportedConc g' "CO2" 2001 ∧ (reportForcing g' 1998).length = (reportForcing g 1998).length ∧
    EntryLe d1.results d1'.results "dT_glob" 5 := by
  obtain ⟨h0, d, d1, t, g, L⟩ := later_case 0
  obtain ⟨h0', d', d1', t', g', L'⟩ := later_case 2
  have hm := later_more twoLayer_names L L'
  refine ⟨h0, h0', d, d', d1, d1', t, t', g, g', L, L', hm.more _ (by decide) (by decide), ?_, ?_⟩
  · exact (C99_forcing L.ran L'.ran (later_only 0 2) (by decide) rfl (later_usual 0) (later_factors 0) (y := 2002) (by decide)
      (by decide)).length_eq.symm
  · exact C99_warms_two_layer L.ran L'.ran L.plain L'.plain rfl rfl (later_setting _ _) (later_only 0 2) (by decide) rfl
      (later_usual 0) (later_factors 0) hm (by norm_num) (by norm_num)
      (show twoLayerPams (cutAndCheckPamset (twoLayerRequired (F := ℝ)) [] []) = .ok TwoLayer.Pams.default by
        have e : twoLayerPams (cutAndCheckPamset (twoLayerRequired (F := ℝ)) [] []) =
          .ok ⟨3.74 / 3.0, ofInt 50, ofInt 1200, 0.5, ofInt 1, 0.61, 0.81, 0.0⟩ := rfl
        rw [e]
        norm_num [TwoLayer.Pams.default])
      (by norm_num [TwoLayer.Pams.default]) (by constructor <;> norm_num [TwoLayer.Pams.default])
      (by norm_num [TwoLayer.Pams.default]) (by norm_num [TwoLayer.Pams.default]) "dT_glob" (by simp) 5 (by decide)

/-- `C99_warms_diffusion`: the same with the diffusion model. -/
example : ∃ (h0 h0' : Handler ℝ (BoxM ℝ)) (d d' d1 d1' : Driver ℝ (BoxM ℝ)) (t t' : UDM.Model ℝ) (g g' : Handler ℝ (BoxM ℝ)),
    LaterRan (udmOps exactSolver) (some flatSet) 0 [] h0 d d1 t g ∧
    LaterRan (udmOps exactSolver) (some flatSet) 2 [] h0' d' d1' t' g' ∧ EntryLe d1.results d1'.results "dT_NH_sea" 4 := by
  obtain ⟨h0, d, d1, t, g, L⟩ := later_diffusion 0
  obtain ⟨h0', d', d1', t', g', L'⟩ := later_diffusion 2
  exact ⟨h0, h0', d, d', d1, d1', t, t', g, g', L, L', C99_warms_diffusion exactSolver_exact L.ran L'.ran L.plain L'.plain rfl rfl
    (later_setting _ _) (later_only 0 2) (by decide) rfl (later_usual 0) (later_factors 0) (later_more udm_names L L')
    (by norm_num) (by norm_num) flat_set C35.flat_physical rfl C35.flat_ordered C35.flat_gentle
    (by simp only [C35.flatPams]; norm_num) (by simp only [C35.flatPams]; norm_num) (by simp only [C35.flatPams]; norm_num)
    (by simp only [C35.flatPams]) (by simp only [C35.flatPams]; norm_num) "dT_NH_sea" (by simp) 4 (by decide)⟩

end

end Verif.Props
