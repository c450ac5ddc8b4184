import Verif.Props.C06_run
import Verif.Spec.OneComponent
import Verif.Lemmas.Asked

/-!
# C80 — runs restricted to one component

The parameter `just_one` names the component whose forcing alone drives the temperatures.
-/

namespace Verif.Props
open Verif.Py Verif.Py.Dict Verif.Model Verif.Model.Handler Verif.Model.Driver Verif.Spec

section
variable {κ τ : Type}

theorem get?_cut_used {req d : Dict (PyVal ℝ)} (hd : Dict.WF d) {k : String} (hk : Dict.has req k = true) :
    Dict.get? (cutNonRequired req d) k = Dict.get? d k := by
  have key : ∀ (l acc : Dict (PyVal ℝ)), WF l → (∀ x ∈ Dict.keys l, x ∉ Dict.keys acc) →
      Dict.get? (l.foldl (fun new p => if req.has p.1 then new.set p.1 p.2 else new) acc) k =
        (Dict.get? l k).or (Dict.get? acc k) := by
    intro l
    induction l with
    | nil => intro acc _ _; rfl
    | cons p l ih =>
      obtain ⟨a, v⟩ := p
      intro acc hl hx
      rw [List.foldl_cons]
      obtain ⟨hl1, hl2⟩ := WF_cons.1 hl
      have hx2 : ∀ x ∈ Dict.keys l, x ∉ Dict.keys (Dict.set acc a v) := by
        intro x hxl hxs
        rcases (mem_keys_set _ _ _ _).1 hxs with rfl | hxs
        · exact hl1 hxl
        · exact hx x (List.mem_cons_of_mem _ hxl) hxs
      have hx3 : ∀ x ∈ Dict.keys l, x ∉ Dict.keys acc := fun x h1 => hx x (List.mem_cons_of_mem _ h1)
      simp only
      by_cases hu : req.has a = true
      · rw [if_pos hu, ih _ hl2 hx2, get?_set, get?_cons]
        by_cases e : a = k
        · subst e
          rw [if_pos rfl, if_pos rfl, (get?_eq_none_iff _ _).2 hl1]
          rfl
        · rw [if_neg e, if_neg e]
      · rw [if_neg hu, ih _ hl2 hx3, get?_cons]
        by_cases e : a = k
        · subst e; exact absurd hk hu
        · rw [if_neg e]
  unfold cutNonRequired
  rw [key d [] hd (by intro x _ h; cases h), get?_nil, Option.or_none]

theorem justOne_checked (q : Option (Dict (PyVal ℝ))) (hq : Dict.WF (q.getD [])) :
    Dict.get? (Factory.checkPamset q) "just_one" = Dict.get? (q.getD []) "just_one" := by
  have hs : ∀ (d : Dict (PyVal ℝ)) (a : String) (w : PyVal ℝ), a ≠ "just_one" → Dict.WF d →
      Dict.WF (if d.has a then d else d.set a w) ∧
      Dict.get? (if d.has a then d else d.set a w) "just_one" = Dict.get? d "just_one" := by
    intro d a w ha hd
    split
    · exact ⟨hd, rfl⟩
    · exact ⟨WF_set _ _ _ hd, by rw [get?_set, if_neg ha]⟩
  obtain ⟨w1, e1⟩ := hs (q.getD []) "lifetime_mode" (.str "TAR") (by decide) hq
  obtain ⟨w2, e2⟩ := hs _ "carbon_cycle_model" (.str "default") (by decide) w1
  unfold Factory.checkPamset cutAndCheckPamset
  rw [get?_checkNumericPamset (by simp [Dict.WF, Dict.keys, Factory.handlerRequired])]
  rw [show Dict.get? (Factory.handlerRequired (F := ℝ)) "just_one" = none by
    rw [get?_eq_none_iff]; simp [Factory.handlerRequired, Dict.keys]]
  simp only
  rw [get?_cut_used w2, e2, e1]
  rw [has_iff, mem_keys_usedKeys]
  left
  simp [Factory.handlerUsed, Dict.keys]

/-- The value in force during a run is the last one given. -/
theorem justOne_inForce {cops : CarbonOps ℝ κ} {tops : ThermalOps ℝ τ} {d0 d : Driver ℝ κ}
    {i : Inputs ℝ} {pamset carb : Option (Dict (PyVal ℝ))} {h0 : Handler ℝ κ} {ps : List (RunPams ℝ)}
    (hc : construct cops i pamset carb = .ok h0) (hd0 : d0.source = .handler h0)
    (ha : After cops tops d0 ps d)
    (hw : ∀ q ∈ pamset :: ps.map RunPams.emiconc, Dict.WF (q.getD [])) :
    ∃ h, d.source = .handler h ∧
      h.pam.get? "just_one" = lastAsked (pamset :: ps.map RunPams.emiconc) := by
  induction ha with
  | fresh =>
    refine ⟨h0, hd0, ?_⟩
    obtain ⟨ns1, ne1, emis', clbr, prec, pre, k0, k', c1, c2, c3, c4, c5, c6, c7, c8, rfl⟩ := construct_spec hc
    simp only
    rw [avoid_get? _ _ _ (by decide), Dict.get?_set, if_neg (by decide),
      justOne_checked _ (hw pamset (by simp))]
    unfold lastAsked
    cases h : Dict.get? (pamset.getD []) "just_one" <;> simp [h]
  | @next ps p d d1 t _ hr ih =>
    obtain ⟨h, hd, hj⟩ := ih (fun q hq => hw q (by
      simp only [List.mem_cons, List.map_append, List.mem_append] at hq ⊢
      exact hq.imp_right Or.inl))
    obtain ⟨g, h1, e, e1, s, -⟩ := run_handler_spec hd hr
    refine ⟨h1, e1, ?_⟩
    rw [s.pam]
    obtain ⟨pam, car, r1, r2, rfl⟩ := reset_spec e
    simp only
    rw [avoid_get? _ _ _ (by decide), consistency_get? r1, if_neg (by decide),
      justOne_checked _ (hw p.emiconc (by simp)), hj]
    unfold lastAsked
    rw [List.map_append, ← List.cons_append, List.filterMap_append, List.getLast?_append]
    cases hx : Dict.get? (p.emiconc.getD []) "just_one" <;> simp [hx]

/-- **C80.** A run that completes while a component is asked for (now or by an earlier parameter set) names, by a
string, a row of the gas table whose forcing is computed year by year, or the total. In every year the reported total
is the reported forcing of that component, and the thermal model is driven by this forcing, split between the
hemispheres as usual, plus the solar forcing. Naming the total restricts the run to what perturbations ascribe to it. -/
theorem C80_run {cops : CarbonOps ℝ κ} {tops : ThermalOps ℝ τ} {d0 d d1 : Driver ℝ κ}
    {i : Inputs ℝ} {pamset carb : Option (Dict (PyVal ℝ))} {h0 g : Handler ℝ κ} {es : ℤ}
    {ps : List (RunPams ℝ)} {p : RunPams ℝ} {t : τ} (hgas : i.gas.keys.Nodup)
    (hTg : "Total_forcing" ∉ i.gas.keys) (hout : (tops.outputs.map Prod.fst ++ forcOutputList).Nodup)
    (ht : RunTables i.concIn i.emis (Dict.set (Factory.checkPamset pamset) "conc_run" (.bool i.concRun))
      d0.nystart es d0.nyend)
    (hc : construct cops i pamset carb = .ok h0) (hd0 : d0.source = .handler h0)
    (ha : After cops tops d0 ps d) (hr : run cops tops d p = .ok (d1, t)) (hg : d1.source = .handler g)
    (hw : ∀ q ∈ pamset :: (ps ++ [p]).map RunPams.emiconc, Dict.WF (q.getD []))
    (hne : d0.nystart ≤ d0.nyend) {v : PyVal ℝ}
    (hj : lastAsked (pamset :: (ps ++ [p]).map RunPams.emiconc) = some v) :
    ∃ k, v = .str k ∧ (k = "Total_forcing" ∨ Yearly i.gas k) ∧
      ∀ y, d0.nystart ≤ y → y ≤ d0.nyend → ∃ tot sun w,
        (∃ c ∈ reportForcing g d0.nystart, c.1 = columnName k ∧ c.2 y = some tot) ∧
        (∃ c ∈ reportForcing g d0.nystart, c.1 = "Total_forcing" ∧ c.2 y = some tot) ∧
        entry d1.results "Total_forcing" (y - d0.nystart).toNat = some tot ∧
        (k = "Total_forcing" → tot = pertOf i.pertForc "Total_forcing" y) ∧
        d0.sun[(y - d0.nystart).toNat]? = some sun ∧
        CalledWith tops d0 d1 y (tot * nhWeight k + sun) (tot * (2 - nhWeight k) + sun) w := by
  obtain ⟨h, emis, tr, H, hd, hsame, htr, hreset, hH, hyr⟩ := run_years yearLaw_real ht hc hd0 ha hr hg
  have hns : d.nystart = d0.nystart := by rw [hsame]
  have hne' : d.nyend = d0.nyend := by rw [hsame]
  have hpam : g.pam.get? "just_one" = some v := by
    obtain ⟨g', hg', e⟩ := justOne_inForce hc hd0 (After.next ha hr) hw
    rw [hg, Source.handler.injEq] at hg'
    subst hg'
    rw [e, hj]
  have main : ∀ y, d0.nystart ≤ y → y ≤ d0.nyend → ∃ k, v = .str k ∧ (k = "Total_forcing" ∨ Yearly i.gas k) ∧
      ∃ tot sun w,
        (∃ c ∈ reportForcing g d0.nystart, c.1 = columnName k ∧ c.2 y = some tot) ∧
        (∃ c ∈ reportForcing g d0.nystart, c.1 = "Total_forcing" ∧ c.2 y = some tot) ∧
        entry d1.results "Total_forcing" (y - d0.nystart).toNat = some tot ∧
        (k = "Total_forcing" → tot = pertOf i.pertForc "Total_forcing" y) ∧
        d0.sun[(y - d0.nystart).toNat]? = some sun ∧
        CalledWith tops d0 d1 y (tot * nhWeight k + sun) (tot * (2 - nhWeight k) + sun) w := by
    intro y hy1 hy2
    obtain ⟨b, luc, sun, r, values, vn, vs, Y, HY, hluc, hsun⟩ := hyr y hy1 hy2
    obtain ⟨k1, k2, k3, k4, k5, k6, k7⟩ := run_forcing hgas hTg ht hc Y hy1 hy2
    have kc := run_components hgas hTg ht hc Y
    have hb : b.pam.get? "just_one" = some v := by rw [← Y.sameC.pam, ← Y.sameG.pam]; exact hpam
    obtain ⟨y0', a0, a1, vv, a3, e0, hle, hlt, m0, hi, m1, hv, m3, he⟩ := conc2forc_inv Y.forc
    rw [k5, Except.ok.injEq] at e0
    subst e0
    obtain ⟨k, rfl, hk, ja, jb, -⟩ := C06_just_one Y.forc k5 hb
    have hcomp : k = "Total_forcing" ∨ Yearly i.gas k := by
      rw [kc] at hk
      rcases List.mem_append.1 hk with hm | hm
      · exact Or.inr (by simpa using (List.mem_filter.1 hm).2)
      · exact Or.inl (by simpa using hm)
    have hcol : ∀ a, a ∈ b.forcKeys → ∃ c ∈ reportForcing g d0.nystart, c.1 = columnName a ∧
        c.2 y = some ((H (y + 1)).forc a (y - d0.nystart).toNat) := by
      intro a ham
      refine ⟨(reportName a, fun z => if z < d0.nystart ∨ g.years.length ≤ (z - d0.nystart).toNat then none
        else some (g.forc a (z - d0.nystart).toNat)), ?_, rfl, ?_⟩
      · unfold reportForcing
        refine List.mem_append_left _ (List.mem_map.2 ⟨a, ?_, rfl⟩)
        rw [Y.sameG.forcKeys, Y.sameC.forcKeys]
        exact ham
      · have hgy : g.years.length = (d0.nyend + 1 - d0.nystart).toNat := by
          rw [Y.sameG.years, Y.sameC.years, Y.sameB.years, Y.years, pyRange_length]
        simp only
        rw [if_neg (by rw [hgy]; omega), Y.forcY]
    unfold applyJustOne at m3
    rw [hb] at m3
    simp only [bind_eq_ok] at m3
    obtain ⟨s, hs, m3⟩ := m3
    obtain rfl : k = s := by
      unfold justOneKey at hs
      simp only at hs
      rw [if_pos hk, Except.ok.injEq] at hs
      exact hs
    rw [pure_ok, Except.ok.injEq] at m3
    unfold finishForc at he
    simp only [Prod.mk.injEq] at he
    obtain ⟨hrr, hh'⟩ := he
    rw [hemisphericForcing_eq] at m3
    have hz0 : (0.0 : ℝ) = 0 := by norm_num
    have hnh : r.nh = r.tot * nhWeight k + sun := by
      rw [hrr, ← m3]; simp only [hz0, zero_add]
    have hsh : r.sh = r.tot * (2 - nhWeight k) + sun := by
      rw [hrr, ← m3]; simp only [hz0, zero_add]
    have hkT : k = "Total_forcing" → r.tot = pertOf i.pertForc "Total_forcing" y := by
      rintro rfl
      have hz := forcLoop_total_zero k4 _ _ _ k1 k2 m1
      have e : r.tot = (addPert b d0.nystart y { a1 with tot := a1.tot + vv, nh := a1.nh + vv, sh := a1.sh + vv }).forc
          "Total_forcing" (y - d0.nystart).toNat := by rw [hrr, ← m3]
      rw [e]
      have hp : b.pert = i.pertForc := by rw [Y.sameB.pert, Y.pert]
      unfold addPert pertOf
      rw [← hp]
      cases b.pert with
      | none => exact hz
      | some rows =>
        simp only
        rw [C09_component rows b.forcKeys d0.nystart y _ "Total_forcing" k2]
        simp only [hz, zero_add]
    refine ⟨k, rfl, hcomp, r.tot, sun, r.wAero, ?_, ?_, ?_, hkT, hsun, ?_⟩
    · obtain ⟨c, c1, c2, c3⟩ := hcol k hk
      refine ⟨c, c1, c2, ?_⟩
      rw [c3]
      by_cases hT : k = "Total_forcing"
      · rw [hT, jb]
      · rw [ja hT]
    · obtain ⟨c, c1, c2, c3⟩ := hcol _ k2
      exact ⟨c, c1, c2, by rw [c3, jb]⟩
    · have e := entry_final htr hout "Total_forcing" (y := y) (by omega) (by omega)
      have := (addYearData_spec hout HY.results).2.2.2.1
      rw [hns] at e this
      rw [e, this]
    · rw [← hnh, ← hsh]
      exact calledWith_year hsame hout htr HY hy1 hy2
  obtain ⟨k, hvk, hk, -⟩ := main d0.nystart le_rfl hne
  refine ⟨k, hvk, hk, ?_⟩
  intro y hy1 hy2
  obtain ⟨k', hv', hk', rest⟩ := main y hy1 hy2
  rw [hvk, PyVal.str.injEq] at hv'
  subst hv'
  exact rest

/-! ## The other components of a year -/

section
variable {F : Type} [Add F] [Sub F] [Mul F] [Div F] [Neg F] [OfScientific F] [LT F] [DecidableLT F] [MathFn F]

theorem tracerForcing_pam {h : Handler F κ} {q : Dict (PyVal F)}
    (hq : ∀ k, k ≠ "just_one" → q.get? k = h.pam.get? k) (yr : ℤ) (luc : F) (a : Acc F) (n : ℕ) (t : String) :
    tracerForcing { h with pam := q } yr luc a n t = tracerForcing h yr luc a n t := by
  have hF : ∀ k, k ≠ "just_one" → pamF q k = pamF h.pam k := by
    intro k hk; unfold pamF Dict.getE; rw [hq k hk]
  have hI : ∀ k, k ≠ "just_one" → pamI q k = pamI h.pam k := by
    intro k hk; unfold pamI Dict.getE; rw [hq k hk]
  have hO : ∀ b : Acc F, tropO3Forcing { h with pam := q } b yr = tropO3Forcing h b yr := by
    intro b
    unfold tropO3Forcing tropO3Conc
    simp only [hF "qo3" (by decide), hI "ref_yr" (by decide)]
    rfl
  have hA : aerosolForcing { h with pam := q } yr t = aerosolForcing h yr t := by
    unfold aerosolForcing
    have hs : ∀ sp, refEmissionSpecies.get? t = some sp → pamF q sp.2 = pamF h.pam sp.2 := by
      intro sp hsp
      apply hF
      have hm := Dict.mem_of_get? hsp
      simp only [refEmissionSpecies, List.mem_cons, List.not_mem_nil, or_false, Prod.mk.injEq] at hm
      rcases hm with ⟨-, rfl⟩ | ⟨-, rfl⟩ | ⟨-, rfl⟩ | ⟨-, rfl⟩ | ⟨-, rfl⟩ | ⟨-, rfl⟩ | ⟨-, rfl⟩ | ⟨-, rfl⟩ <;> decide
    cases hsp : refEmissionSpecies.get? t with
    | none => rfl
    | some sp => simp only [hs sp hsp]; rfl
  unfold tracerForcing
  simp only [hA, hO, hF "qh2o_ch4" (by decide)]
  rfl

/-- **C80**, the other components: whatever a year's forcing is restricted to, every component's own forcing, every
concentration and the aerosol fraction are those of the same year without the restriction. -/
theorem C80_others {h h' : Handler F κ} {q : Dict (PyVal F)} {yr : ℤ} {luc sun : F} {r : ForcResult F}
    (hc : conc2forc h yr luc sun = .ok (r, h'))
    (hq : ∀ k, k ≠ "just_one" → q.get? k = h.pam.get? k) (hn : q.get? "just_one" = none) :
    ∃ r1 h1, conc2forc { h with pam := q } yr luc sun = .ok (r1, h1) ∧
      (∀ k n, k ≠ "Total_forcing" → h1.forc k n = h'.forc k n) ∧ h1.conc = h'.conc ∧ r1.wAero = r.wAero := by
  unfold conc2forc at hc ⊢
  have e : forcStep { h with pam := q } yr luc = forcStep h yr luc := by
    funext n a t
    unfold forcStep
    rw [tracerForcing_pam hq]
  simp only [bind_eq_ok] at hc
  obtain ⟨a, ha, y0, hy0, n, hi, b, hb, c, hcc, x, hx, hf⟩ := hc
  rw [pure_ok, Except.ok.injEq] at hf
  have ha' : threeMain { h with pam := q } yr = .ok a := ha
  have hy' : Handler.y0 { h with pam := q } = .ok y0 := hy0
  have hi' : Handler.index { h with pam := q } yr = .ok n := hi
  have hc' : addVanilla { h with pam := q } yr b = .ok c := hcc
  have hp : addPert { h with pam := q } y0 yr c = addPert h y0 yr c := rfl
  rw [ha', bind_ok, hy', bind_ok, hi', bind_ok, e, hb, bind_ok, hc', bind_ok, hp]
  have hj : ∀ z, applyJustOne { h with pam := q } n z = .ok z := by
    intro z; unfold applyJustOne; simp only [hn]
  rw [hj, bind_ok]
  refine ⟨_, _, rfl, ?_⟩
  have hfx : x.forc = (addPert h y0 yr c).forc ∧ x.conc = (addPert h y0 yr c).conc ∧ x.aero = (addPert h y0 yr c).aero := by
    unfold applyJustOne at hx
    split at hx
    · rw [Except.ok.injEq] at hx; subst hx; exact ⟨rfl, rfl, rfl⟩
    · rw [bind_eq_ok] at hx
      obtain ⟨k, -, hx⟩ := hx
      rw [pure_ok, Except.ok.injEq] at hx
      subst hx
      exact ⟨rfl, rfl, rfl⟩
  obtain ⟨f1, f2, f3⟩ := hfx
  have hr : r = (finishForc h n sun x).1 := by rw [hf]
  have hh : h' = (finishForc h n sun x).2 := by rw [hf]
  have hset : ∀ (f : String → ℕ → F) (u v : F) (k : String) (m : ℕ), k ≠ "Total_forcing" →
      setForc f "Total_forcing" n u k m = setForc f "Total_forcing" n v k m := by
    intro f u v k m hk
    unfold setForc
    simp [hk]
  refine ⟨?_, ?_, ?_⟩
  · intro k m hk
    rw [hh]
    unfold finishForc
    simp only [f1]
    exact hset _ _ _ _ _ hk
  · rw [hh]; unfold finishForc; simp only [f2]
  · rw [hr]
    unfold finishForc
    simp only [f1, f3]
    have hl : (h.forcKeys.filter (fun k => k ≠ "Total_forcing")).map
        (fun k => MathFn.abs (setForc (addPert h y0 yr c).forc "Total_forcing" n (addPert h y0 yr c).tot k n)) =
        (h.forcKeys.filter (fun k => k ≠ "Total_forcing")).map
        (fun k => MathFn.abs (setForc (addPert h y0 yr c).forc "Total_forcing" n x.tot k n)) := by
      apply List.map_congr_left
      intro k hk
      rw [hset _ _ x.tot k n (by simpa using (List.mem_filter.1 hk).2)]
    rw [hl]

end
/-- **C80**, what cannot be asked for: a gas of the table whose forcing is computed ahead (every gas with a
concentration other than CO2, CH4 and N2O). No run completes, although the gas has a column in the reported table. -/
theorem C80_ahead_refused {cops : CarbonOps ℝ κ} {tops : ThermalOps ℝ τ} {d0 d d1 : Driver ℝ κ}
    {i : Inputs ℝ} {pamset carb : Option (Dict (PyVal ℝ))} {h0 : Handler ℝ κ} {es : ℤ}
    {ps : List (RunPams ℝ)} {p : RunPams ℝ} {t : τ} (hgas : i.gas.keys.Nodup)
    (hTg : "Total_forcing" ∉ i.gas.keys) (hout : (tops.outputs.map Prod.fst ++ forcOutputList).Nodup)
    (ht : RunTables i.concIn i.emis (Dict.set (Factory.checkPamset pamset) "conc_run" (.bool i.concRun))
      d0.nystart es d0.nyend)
    (hc : construct cops i pamset carb = .ok h0) (hd0 : d0.source = .handler h0)
    (ha : After cops tops d0 ps d)
    (hw : ∀ q ∈ pamset :: (ps ++ [p]).map RunPams.emiconc, Dict.WF (q.getD []))
    (hne : d0.nystart ≤ d0.nyend) {k : String} (hk : Ahead i.gas k)
    (hj : lastAsked (pamset :: (ps ++ [p]).map RunPams.emiconc) = some (.str k)) :
    run cops tops d p ≠ .ok (d1, t) := by
  intro hr
  obtain ⟨h, hd, -⟩ := after_spec yearLaw_real hd0 ha (fun _ => True) trivial
    (fun _ _ _ _ _ _ _ => trivial) (fun _ _ _ _ _ _ => trivial)
  obtain ⟨g0, g, -, hg, -⟩ := run_handler_spec hd hr
  obtain ⟨k', e, hy, -⟩ := C80_run hgas hTg hout ht hc hd0 ha hr hg hw hne hj
  rw [PyVal.str.injEq] at e
  subst e
  obtain ⟨x, hx, u1, u2, u3, u4⟩ := hk
  rcases hy with rfl | ⟨x', hx', hm, -⟩
  · exact hTg ((get?_isSome_iff _ _).1 ⟨x, hx⟩)
  · rw [hx, Option.some.injEq] at hx'
    subst hx'
    exact hm.elim u1 (fun h => h.elim u2 (fun h => h.elim u3 u4))

end

/-! ## The hypotheses are met: black carbon alone, asked for in the first of two runs -/

section
open Verif.Exec Verif.Model.ThermalInst Verif.Model.CarbonInst

noncomputable def carbonAlone : RunPams ℝ := ⟨none, some [("just_one", .str "BC")], none⟩

/-- Runs restricted to one component complete, and the one after them. -/
theorem alone_case (b : Bool) : ∃ h0 d d1 t g, construct boxOps (richInputs b) richPam none = .ok h0 ∧
    RunTables (richInputs b).concIn (richInputs b).emis
      (Dict.set (Factory.checkPamset richPam) "conc_run" (.bool (richInputs b).concRun)) 1998 2000 2003 ∧
    After boxOps twoLayerOps (richDriver h0) [carbonAlone] d ∧
    run boxOps twoLayerOps d ⟨none, none, none⟩ = .ok (d1, t) ∧ d1.source = .handler g := by
  obtain ⟨h1, h2, h3, -, h5⟩ := rich_pams
  obtain ⟨h0, hc, h⟩ := C63_box (carb := none) yearLaw_real rich_gases (rich_tables b) h1 h2 h3 (.absent (by decide))
  obtain ⟨d1, hd⟩ := h (richDriver h0) ([carbonAlone] ++ [⟨none, none, none⟩]) rfl rfl rfl (rich_series h0) (by
    intro p hp
    simp only [List.cons_append, List.nil_append, List.mem_cons, List.not_mem_nil, or_false] at hp
    rcases hp with rfl | rfl
    · refine ⟨rfl, ?_⟩
      intro v hv
      simp only [carbonAlone, Option.getD_some, List.mem_cons, List.not_mem_nil, or_false, Prod.mk.injEq, true_and] at hv
      exact ⟨"BC", hv, Or.inr ⟨_, rfl, Or.inl rfl, by decide, by decide⟩⟩
    · exact ⟨h5, .absent (by decide)⟩)
  obtain ⟨d, t, ha, hr⟩ := after_snoc hd
  obtain ⟨h', hd', -⟩ := after_spec yearLaw_real (rfl : (richDriver h0).source = .handler h0) ha (fun _ => True)
    trivial (fun _ _ _ _ _ _ _ => trivial) (fun _ _ _ _ _ _ => trivial)
  obtain ⟨g0, g, -, hg, -⟩ := run_handler_spec hd' hr
  exact ⟨h0, d, d1, t, g, hc, (rich_tables b).run h1 h2 h3, ha, hr, hg⟩

/-- `C80_run`: the second run does not mention `just_one`, but is still restricted to black carbon. -/
example (b : Bool) : ∃ (d1 : Driver ℝ (BoxM ℝ)) (g : Handler ℝ (BoxM ℝ)) (tot w : ℝ), d1.source = .handler g ∧
    (∃ c ∈ reportForcing g 1998, c.1 = "BC" ∧ c.2 2002 = some tot) ∧
    (∃ c ∈ reportForcing g 1998, c.1 = "Total_forcing" ∧ c.2 2002 = some tot) ∧
    ∃ h0, CalledWith twoLayerOps (richDriver h0) d1 2002 (tot * 1.47 + 1) (tot * (2 - 1.47) + 1) w := by
  obtain ⟨h0, d, d1, t, g, hc, ht, ha, hr, hg⟩ := alone_case b
  obtain ⟨k, e, -, h⟩ := C80_run (d0 := richDriver h0) (rich_once b).1 (rich_once b).2 twoLayer_names ht hc rfl ha hr hg
    (by
      intro q hq
      simp only [carbonAlone, List.cons_append, List.nil_append, List.map_cons, List.map_nil, List.mem_cons,
        List.not_mem_nil, or_false] at hq
      rcases hq with rfl | rfl | rfl <;> simp [richPam, Dict.WF, Dict.keys])
    (by simp [richDriver]) (v := .str "BC") rfl
  rw [PyVal.str.injEq] at e
  subst e
  obtain ⟨tot, sun, w, c1, c2, -, -, c5, c6⟩ := h 2002 (by simp [richDriver]) (by simp [richDriver])
  have hs : sun = 1 := by simpa [richDriver] using c5.symm
  subst hs
  have hw : nhWeight "BC" = 1.47 := by simp [nhWeight]
  rw [hw] at c6
  exact ⟨d1, g, tot, w, hg, c1, c2, h0, c6⟩

/-- `C80_others`: a year of that run. -/
example (b : Bool) : ∃ (h h' h1 : Handler ℝ (BoxM ℝ)) (r r1 : ForcResult ℝ) (q : Dict (PyVal ℝ)) (luc sun : ℝ),
    conc2forc h 2002 luc sun = .ok (r, h') ∧ h.pam.get? "just_one" = some (.str "BC") ∧
    conc2forc { h with pam := q } 2002 luc sun = .ok (r1, h1) ∧ h1.forc "CO2" 4 = h'.forc "CO2" 4 := by
  obtain ⟨h0, d, d1, t, g, hc, ht, ha, hr, hg⟩ := alone_case b
  obtain ⟨h, emis, tr, H, hd, hsame, htr, hreset, hH, hyr⟩ :=
    run_years (d0 := richDriver h0) yearLaw_real ht hc rfl ha hr hg
  obtain ⟨b', luc, sun, r, values, vn, vs, Y, HY, hluc, hsun⟩ := hyr 2002 (by simp [richDriver]) (by simp [richDriver])
  have hp : b'.pam.get? "just_one" = some (.str "BC") := by
    rw [← Y.sameC.pam, ← Y.sameG.pam]
    obtain ⟨g', hg', e⟩ := justOne_inForce hc rfl (After.next ha hr) (by
      intro q hq
      simp only [carbonAlone, List.cons_append, List.nil_append, List.map_cons, List.map_nil, List.mem_cons,
        List.not_mem_nil, or_false] at hq
      rcases hq with rfl | rfl | rfl <;> simp [richPam, Dict.WF, Dict.keys])
    rw [hg, Source.handler.injEq] at hg'
    subst hg'
    rw [e]; rfl
  have hget : ∀ (l : Dict (PyVal ℝ)) (k : String),
      Dict.get? (l.filter (fun e => e.1 ≠ "just_one")) k = if k = "just_one" then none else Dict.get? l k := by
    intro l k
    induction l with
    | nil => simp [Dict.get?]
    | cons e l ih =>
      obtain ⟨a, v⟩ := e
      by_cases ha : a = "just_one"
      · rw [List.filter_cons_of_neg (by simpa using ha), ih, get?_cons]
        by_cases hk : k = "just_one"
        · rw [if_pos hk, if_pos hk]
        · rw [if_neg hk, if_neg hk, if_neg (by rw [ha]; exact fun x => hk x.symm)]
      · rw [List.filter_cons_of_pos (by simpa using ha), get?_cons, ih, get?_cons]
        by_cases hk : k = "just_one"
        · rw [if_pos hk, if_pos hk, if_neg (by rw [hk]; exact ha)]
        · rw [if_neg hk, if_neg hk]
  obtain ⟨r1, h1, e1, e2, -⟩ := C80_others (q := b'.pam.filter (fun e => e.1 ≠ "just_one")) Y.forc
    (fun k hk => by rw [hget, if_neg hk]) (by rw [hget, if_pos rfl])
  exact ⟨b', _, h1, r, r1, _, luc, sun, Y.forc, hp, e1, e2 _ _ (by decide)⟩

/-- **C80** is false for every row of the gas table: CFC-11 is a row with a forcing and all its data are there, but no
run restricted to it completes, while unrestricted runs do. -/
theorem C80_every_row_false (b : Bool) : ∃ (h0 : Handler ℝ (BoxM ℝ)),
    construct boxOps (richInputs b) richPam none = .ok h0 ∧ "CFC-11" ∈ (richInputs b).gas.keys ∧
    (∃ d1 t, run boxOps twoLayerOps (richDriver h0) ⟨none, none, none⟩ = .ok (d1, t)) ∧
    ∀ d1 t, run boxOps twoLayerOps (richDriver h0) ⟨none, some [("just_one", .str "CFC-11")], none⟩ ≠ .ok (d1, t) := by
  obtain ⟨h1, h2, h3, -, h5⟩ := rich_pams
  obtain ⟨h0, hc, h⟩ := C63_box (carb := none) yearLaw_real rich_gases (rich_tables b) h1 h2 h3 (.absent (by decide))
  refine ⟨h0, hc, by simp [richInputs, richGas, Dict.keys], ?_, ?_⟩
  · obtain ⟨d1, hd⟩ := h (richDriver h0) ([] ++ [⟨none, none, none⟩]) rfl rfl rfl (rich_series h0) (by
      intro p hp
      simp only [List.nil_append, List.mem_cons, List.not_mem_nil, or_false] at hp
      subst hp
      exact ⟨h5, .absent (by decide)⟩)
    obtain ⟨d, t, ha, hr⟩ := after_snoc hd
    rw [after_nil ha] at hr
    exact ⟨d1, t, hr⟩
  · intro d1 t
    refine C80_ahead_refused (d0 := richDriver h0) (ps := []) (k := "CFC-11") (es := 2000) (rich_once b).1 (rich_once b).2
      twoLayer_names ((rich_tables b).run h1 h2 h3) hc rfl .fresh ?_ (by simp [richDriver])
      ⟨_, rfl, by decide, by decide, by decide, by decide⟩ rfl
    intro q hq
    simp only [List.nil_append, List.map_cons, List.map_nil, List.mem_cons, List.not_mem_nil, or_false] at hq
    rcases hq with rfl | rfl <;> simp [richPam, Dict.WF, Dict.keys]

end
end Verif.Props
