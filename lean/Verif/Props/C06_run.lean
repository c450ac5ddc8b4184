import Verif.Props.C61
import Verif.Props.C08
import Verif.Props.C63

/-!
# C06 and C08 in a run

What `C06_total` and `C08_range_partial` say about the forcing of one year, here for every year of every
run of an instance, with the reported tables and the call of the thermal model.
-/

namespace Verif.Props
open Verif.Py Verif.Py.Dict Verif.Model Verif.Model.Handler Verif.Model.Driver Verif.Spec

section
variable {κ τ : Type}

/-- The columns of the table of forcings computed ahead: gases of the table, and stratospheric ozone. -/
theorem erf_ahead {gas : Dict (Gas ℝ)} {concIn emis : Frame ℝ} {pam : Dict (PyVal ℝ)}
    {pert : Option (List (PertRow ℝ))} {years : List ℤ} {cl br : Dict Int} {p : Precalc ℝ}
    (hn : gas.keys.Nodup) (h : precalculate gas concIn emis pam pert years cl br = .ok p) :
    ∀ c ∈ p.erf.cols, Ahead gas c ∨ c = "STRAT_O3" := by
  unfold precalculate at h
  simp only [bind_eq_ok] at h
  obtain ⟨gases, hg, conc, hconc, erf0, herf, so3, hso3, strat, hstrat, rows, hadd, erf, hpert, hp⟩ := h
  rw [pure_ok, Except.ok.injEq] at hp
  subst hp
  have hgn : gases.Nodup := by
    unfold vanillaGases at hg
    split at hg
    · rw [Except.ok.injEq] at hg
      rw [← hg]
      exact List.Nodup.sublist (List.Sublist.map _ List.filter_sublist) hn
    · cases hg
  have hcn : (if "STRAT_O3" ∈ gases then gases else gases ++ ["STRAT_O3"]).Nodup := by
    split
    · exact hgn
    · rename_i hs
      rw [List.nodup_append]
      refine ⟨hgn, by simp, ?_⟩
      intro x hx z hz e
      simp only [List.mem_cons, List.not_mem_nil, or_false] at hz
      subst e; subst hz
      exact hs hx
  have hc := (vanilla_ok (t := rowsTable _ rows) hcn hpert).1
  intro c hcm
  simp only at hcm
  rw [hc] at hcm
  have hsub : ∀ g ∈ gases, Ahead gas g := fun g hgm => (mem_vanilla hn hg g).1 hgm
  change c ∈ (if "STRAT_O3" ∈ gases then gases else gases ++ ["STRAT_O3"]) at hcm
  split at hcm
  · exact Or.inl (hsub c hcm)
  · rcases List.mem_append.1 hcm with hm | hm
    · exact Or.inl (hsub c hm)
    · exact Or.inr (by simpa using hm)

theorem erf_cols {gas : Dict (Gas ℝ)} {concIn emis : Frame ℝ} {pam : Dict (PyVal ℝ)}
    {pert : Option (List (PertRow ℝ))} {years : List ℤ} {cl br : Dict Int} {p : Precalc ℝ}
    (hn : gas.keys.Nodup) (h : precalculate gas concIn emis pam pert years cl br = .ok p) :
    ∀ c ∈ p.erf.cols, c ∈ gas.keys ∨ c = "STRAT_O3" := by
  intro c hc
  refine (erf_ahead hn h c hc).imp_left ?_
  rintro ⟨x, hx, -⟩
  exact (get?_isSome_iff _ _).1 ⟨x, hx⟩

/-- What a year of a run looks like to the forcing theorems. -/
theorem run_forcing {cops : CarbonOps ℝ κ} {i : Inputs ℝ} {es ns ne y : ℤ} {h0 g a b c : Handler ℝ κ}
    {emis : Frame ℝ} {fb : Option (Dict ℝ)} {luc sun : ℝ} {r : ForcResult ℝ}
    {pamset carb : Option (Dict (PyVal ℝ))} (hgas : i.gas.keys.Nodup) (hTg : "Total_forcing" ∉ i.gas.keys)
    (ht : RunTables i.concIn i.emis (Dict.set (Factory.checkPamset pamset) "conc_run" (.bool i.concRun)) ns es ne)
    (hc : construct cops i pamset carb = .ok h0)
    (Y : RunYear cops i es ns ne h0 g emis a b c fb luc sun r y) (hy1 : ns ≤ y) (hy2 : y ≤ ne) :
    b.forcKeys.Nodup ∧ "Total_forcing" ∈ b.forcKeys ∧ "Total_forcing" ∉ b.prec.erf.cols ∧
      b.gas.get? "Total_forcing" = none ∧ b.y0 = .ok ns ∧
      (∀ x ∈ reportForcing g ns, ∃ x' ∈ reportForcing c ns, x.1 = x'.1 ∧ x.2 y = x'.2 y) ∧
      (reportForcing g ns).map (fun x => (x.1, x.2 y)) = (reportForcing c ns).map (fun x => (x.1, x.2 y)) := by
  obtain ⟨emis', cl, br, he, ht2, hpre, hcg, hci, hce, hcp, hcy⟩ := constructed hc ht
  obtain ⟨hvg, -, hsp⟩ := mem_spicy hpre
  have hspn : h0.prec.spicy.Nodup := by rw [hsp]; exact hgas.filter _
  have hTs : "Total_forcing" ∉ h0.prec.spicy.filter (fun t => t ≠ "CO2.1") := by
    intro h
    have := (List.mem_filter.1 h).1
    rw [hsp] at this
    exact hTg (List.mem_filter.1 this).1
  have hfk : b.forcKeys = h0.prec.spicy.filter (fun t => t ≠ "CO2.1") ++ ["Total_forcing"] := by
    rw [Y.sameB.forcKeys, Y.forcKeys]
    unfold forcKeysOf
    rw [if_neg hTs]
  have hrep : (reportForcing g ns).map (fun x => (x.1, x.2 y)) =
      (reportForcing c ns).map (fun x => (x.1, x.2 y)) := by
    unfold reportForcing
    simp only [List.map_append, List.map_map]
    rw [Y.sameG.forcKeys, Y.sameG.prec, Y.sameG.years]
    refine congrArg (· ++ _) (List.map_congr_left ?_)
    intro k _
    simp only [Function.comp, Y.forcY]
  refine ⟨?_, ?_, ?_, ?_, ?_, ?_, hrep⟩
  · rw [hfk, List.nodup_append]
    refine ⟨hspn.filter _, by simp, ?_⟩
    intro x hx z hz hab
    simp only [List.mem_cons, List.not_mem_nil, or_false] at hz
    subst hab; subst hz
    exact hTs hx
  · rw [hfk]; simp
  · rw [Y.sameB.prec, Y.prec]
    intro h
    rcases erf_cols hgas hpre _ h with h | h
    · exact hTg h
    · exact absurd h (by decide)
  · rw [get?_eq_none_iff, Y.keysB]
    exact hTg
  · have hyrs : b.years = pyRange ns (ne + 1) := by rw [Y.sameB.years, Y.years]
    exact y0_pyRange hyrs (by omega)
  · intro x hx
    have hm : (x.1, x.2 y) ∈ (reportForcing g ns).map (fun x => (x.1, x.2 y)) := List.mem_map.2 ⟨x, hx, rfl⟩
    rw [hrep] at hm
    obtain ⟨x', h1, h2⟩ := List.mem_map.1 hm
    rw [Prod.mk.injEq] at h2
    exact ⟨x', h1, h2.1.symm, h2.2.symm⟩

/-- No parameter set given so far asks for a single component. -/
def NoJustOne (pamset : Option (Dict (PyVal ℝ))) (ps : List (RunPams ℝ)) (p : RunPams ℝ) : Prop :=
  "just_one" ∉ Dict.keys (pamset.getD []) ∧
    ∀ q ∈ ps ++ [p], "just_one" ∉ Dict.keys (q.emiconc.getD [])

/-- The thermal model of a run was called in year `y` with these hemispheric forcings and aerosol
fraction: its answer is what the run reports for the year. -/
def CalledWith (tops : ThermalOps ℝ τ) (d0 d1 : Driver ℝ κ) (y : ℤ) (nh sh w : ℝ) : Prop :=
  ∃ s s' vn vs values, tops.budget (tops.setFeedback s w) nh sh vn vs = .ok (values, s') ∧
    d0.volcN[(y - d0.nystart).toNat]? = some vn ∧ d0.volcS[(y - d0.nystart).toNat]? = some vs ∧
    ∀ o ∈ tops.outputs, entry d1.results o.1 (y - d0.nystart).toNat = values.get? o.2

theorem rowOf_some {α : Type} {l : List α} {j : ℤ} {x : α} (h : rowOf l j = .ok x) : l[j.toNat]? = some x := by
  unfold rowOf at h
  split at h
  · cases h
  · split at h
    · rename_i e
      rw [Except.ok.injEq] at h
      rw [e, h]
    · cases h

theorem calledWith_year {cops : CarbonOps ℝ κ} {tops : ThermalOps ℝ τ} {d0 d d1 : Driver ℝ κ} {p : RunPams ℝ}
    {t : τ} {tr : ℤ → RunState ℝ κ τ} {a b c : Handler ℝ κ} {luc sun : ℝ} {r : ForcResult ℝ} {values : Dict ℝ}
    {vn vs : List ℝ} {y : ℤ} (hsame : d = { d0 with source := d.source, results := d.results })
    (hout : (tops.outputs.map Prod.fst ++ forcOutputList).Nodup) (htr : Trace cops tops d p d1 t tr)
    (HY : HandlerYear cops tops d (tr y) (tr (y + 1)) a b c y luc sun r values vn vs)
    (hy1 : d0.nystart ≤ y) (hy2 : y ≤ d0.nyend) : CalledWith tops d0 d1 y r.nh r.sh r.wAero := by
  have hns : d.nystart = d0.nystart := by rw [hsame]
  have hne : d.nyend = d0.nyend := by rw [hsame]
  refine ⟨(tr y).thermal, (tr (y + 1)).thermal, vn, vs, values, HY.budget, ?_, ?_, ?_⟩
  · have := rowOf_some HY.vnE
    rwa [hns, show d.volcN = d0.volcN by rw [hsame]] at this
  · have := rowOf_some HY.vsE
    rwa [hns, show d.volcS = d0.volcS by rw [hsame]] at this
  · intro o ho
    have e := entry_final htr hout o.1 (y := y) (by omega) (by omega)
    obtain ⟨v, v1, v2⟩ := (addYearData_spec hout HY.results).2.2.1 o ho
    rw [hns] at e v2
    rw [e, v2, v1]

/-- C06 in a run: for every instance (new, or after any runs), every parameter set without `just_one` and
every year of the run, all columns of the reported forcing table have a value, and the reported total is
the sum of the other columns (plus perturbation rows that name the total itself). The series
`Total_forcing` of the results has the same value, and the two hemispheric forcings handed to the thermal
model average to the total plus the solar forcing of the year. -/
theorem C06_run {cops : CarbonOps ℝ κ} {tops : ThermalOps ℝ τ} {d0 d d1 : Driver ℝ κ}
    {i : Inputs ℝ} {pamset carb : Option (Dict (PyVal ℝ))} {h0 g : Handler ℝ κ} {es : ℤ}
    {ps : List (RunPams ℝ)} {p : RunPams ℝ} {t : τ} (hgas : i.gas.keys.Nodup)
    (hTg : "Total_forcing" ∉ i.gas.keys) (hout : (tops.outputs.map Prod.fst ++ forcOutputList).Nodup)
    (ht : RunTables i.concIn i.emis (Dict.set (Factory.checkPamset pamset) "conc_run" (.bool i.concRun))
      d0.nystart es d0.nyend)
    (hc : construct cops i pamset carb = .ok h0) (hd0 : d0.source = .handler h0)
    (ha : After cops tops d0 ps d) (hr : run cops tops d p = .ok (d1, t)) (hg : d1.source = .handler g)
    (hj : NoJustOne pamset ps p) {y : ℤ} (hy1 : d0.nystart ≤ y) (hy2 : y ≤ d0.nyend) :
    (∀ c ∈ reportForcing g d0.nystart, (c.2 y).isSome) ∧
    ∃ tot sun nh sh w,
      (∃ c ∈ reportForcing g d0.nystart, c.1 = "Total_forcing" ∧ c.2 y = some tot) ∧
      entry d1.results "Total_forcing" (y - d0.nystart).toNat = some tot ∧
      tot = ((componentColumns g d0.nystart).map (fun c => (c.2 y).getD 0)).sum
        + pertOf i.pertForc "Total_forcing" y ∧
      d0.sun[(y - d0.nystart).toNat]? = some sun ∧ (nh + sh) / 2 = tot + sun ∧
      CalledWith tops d0 d1 y nh sh w := by
  obtain ⟨h, emis, tr, H, hd, hsame, htr, hreset, hH, hyr⟩ := run_years yearLaw_real ht hc hd0 ha hr hg
  obtain ⟨b, luc, sun, r, values, vn, vs, Y, HY, hluc, hsun⟩ := hyr y hy1 hy2
  obtain ⟨k1, k2, k3, k4, k5, k6, k7⟩ := run_forcing hgas hTg ht hc Y hy1 hy2
  have hns : d.nystart = d0.nystart := by rw [hsame]
  have hne : d.nyend = d0.nyend := by rw [hsame]
  have hjust : b.pam.get? "just_one" = none := by
    obtain ⟨h', hd', -, kept, -⟩ := after_spec yearLaw_real hd0 ha (fun _ => True) trivial
      (fun _ _ _ _ _ _ _ => trivial) (fun _ _ _ _ _ _ => trivial)
    rw [hd, Source.handler.injEq] at hd'
    subst hd'
    have kept' : Kept True h0 h :=
      { kept with just := fun _ => kept.just (fun q hq => hj.2 q (List.mem_append_left _ hq)) }
    have k := (kept'.reset yearLaw_real hreset
      (fun _ => hj.2 p (List.mem_append_right _ (List.mem_singleton.2 rfl)))).just trivial
    obtain ⟨ns1, ne1, emis', clbr, prec, pre, k0, k', c1, c2, c3, c4, c5, c6, c7, c8, rfl⟩ := construct_spec hc
    have h0j : (avoidRegionalDoubleCounting i.gas.keys
        (Dict.set (Factory.checkPamset pamset) "conc_run" (.bool i.concRun))).get? "just_one" = none := by
      rw [avoid_get? _ _ _ (by decide), Dict.get?_set, if_neg (by decide), get?_eq_none_iff,
        mem_keys_checkPamset, not_or]
      refine ⟨?_, fun ⟨_, x⟩ => hj.1 x⟩
      unfold Factory.checkPamset cutAndCheckPamset
      rw [mem_keys_checkNumeric, mem_keys_cut]
      simp [Factory.handlerRequired, Dict.keys, Dict.has, Dict.get?, Dict.set]
    have hb : b.pam = (H d0.nystart).pam := by
      obtain ⟨g0, g', hre, hg', hs, -, -⟩ := run_handler_spec hd hr
      rw [hreset, Except.ok.injEq] at hre
      rw [hg, Source.handler.injEq] at hg'
      rw [hre, ← hs.pam, ← hg', Y.sameG.pam, Y.sameC.pam]
    rw [hb, k]
    exact h0j
  obtain ⟨t1, ⟨cT, t2, t2n, t2v⟩, t3, t4⟩ := C06_total Y.forc k5 k1 k2 k3 k4 hjust
  refine ⟨?_, r.tot, sun, r.nh, r.sh, r.wAero, ?_, ?_, ?_, hsun, t4, ?_⟩
  · intro c hcm
    obtain ⟨c', m, -, e⟩ := k6 c hcm
    rw [e]
    exact t1 c' m
  · have hm : (cT.1, cT.2 y) ∈ (reportForcing g d0.nystart).map (fun x => (x.1, x.2 y)) := by
      rw [k7]; exact List.mem_map.2 ⟨cT, t2, rfl⟩
    obtain ⟨x', h1, h2⟩ := List.mem_map.1 hm
    rw [Prod.mk.injEq] at h2
    exact ⟨x', h1, h2.1.trans t2n, h2.2.trans t2v⟩
  · have e := entry_final htr hout "Total_forcing" (y := y) (by omega) (by omega)
    have := (addYearData_spec hout HY.results).2.2.2.1
    rw [hns] at e this
    rw [e, this]
  · rw [t3]
    refine congrArg₂ (· + ·) ?_ ?_
    · unfold componentColumns
      have key : ∀ l : List (String × (ℤ → Option ℝ)),
          (l.filter (fun c => c.1 ≠ "Total_forcing")).map (fun c => (c.2 y).getD 0) =
          ((l.map (fun x => (x.1, x.2 y))).filter (fun c => c.1 ≠ "Total_forcing")).map (fun c => c.2.getD 0) := by
        intro l
        rw [List.filter_map, List.map_map]
        rfl
      rw [key, key, k7]
    · unfold totalPert pertOf
      rw [Y.sameB.pert, Y.pert]
      cases i.pertForc <;> rfl
  · exact calledWith_year hsame hout htr HY hy1 hy2

open Classical in
/-- The components computed in the run. -/
theorem run_components {cops : CarbonOps ℝ κ} {i : Inputs ℝ} {es ns ne y : ℤ} {h0 g a b c : Handler ℝ κ}
    {emis : Frame ℝ} {fb : Option (Dict ℝ)} {luc sun : ℝ} {r : ForcResult ℝ}
    {pamset carb : Option (Dict (PyVal ℝ))} (hgas : i.gas.keys.Nodup) (hTg : "Total_forcing" ∉ i.gas.keys)
    (ht : RunTables i.concIn i.emis (Dict.set (Factory.checkPamset pamset) "conc_run" (.bool i.concRun)) ns es ne)
    (hc : construct cops i pamset carb = .ok h0)
    (Y : RunYear cops i es ns ne h0 g emis a b c fb luc sun r y) :
    b.forcKeys = i.gas.keys.filter (fun k => Yearly i.gas k) ++ ["Total_forcing"] := by
  obtain ⟨emis', cl, br, he, ht2, hpre, hcg, hci, hce, hcp, hcy⟩ := constructed hc ht
  obtain ⟨hvg, -, hsp⟩ := mem_spicy hpre
  have hTs : "Total_forcing" ∉ h0.prec.spicy.filter (fun t => t ≠ "CO2.1") := by
    intro h
    have := (List.mem_filter.1 h).1
    rw [hsp] at this
    exact hTg (List.mem_filter.1 this).1
  have hfk : b.forcKeys = h0.prec.spicy.filter (fun t => t ≠ "CO2.1") ++ ["Total_forcing"] := by
    rw [Y.sameB.forcKeys, Y.forcKeys]
    unfold forcKeysOf
    rw [if_neg hTs]
  rw [hfk, hsp, List.filter_filter]
  refine congrArg (· ++ _) (List.filter_congr ?_)
  intro k hk
  obtain ⟨x, hx⟩ := (get?_isSome_iff _ _).2 hk
  rw [← Bool.decide_and, decide_eq_decide, mem_vanilla hgas hvg]
  constructor
  · rintro ⟨h1, h2, h3⟩
    refine ⟨x, hx, ?_, h3, h1⟩
    by_contra hn
    simp only [not_or] at hn
    exact h2 ⟨x, hx, hn.1, hn.2.1, hn.2.2.1, hn.2.2.2⟩
  · rintro ⟨x', hx', h1, h2, h3⟩
    refine ⟨h3, ?_, h2⟩
    rintro ⟨x'', hx'', u1, u2, u3, u4⟩
    rw [hx', Option.some.injEq] at hx''
    subst hx''
    exact h1.elim u1 (fun h => h.elim u2 (fun h => h.elim u3 u4))

open Classical in
/-- C08 in a run (partial: years in which no component computed in the run is perturbed): the aerosol
fraction the thermal model is called with lies between zero and one, and is the part of the aerosols in the
sum of the magnitudes of the reported forcings of the components computed in the run. Missing: perturbed
years (`C08_false`). -/
theorem C08_run_partial {cops : CarbonOps ℝ κ} {tops : ThermalOps ℝ τ} {d0 d d1 : Driver ℝ κ}
    {i : Inputs ℝ} {pamset carb : Option (Dict (PyVal ℝ))} {h0 g : Handler ℝ κ} {es : ℤ}
    {ps : List (RunPams ℝ)} {p : RunPams ℝ} {t : τ} (hgas : i.gas.keys.Nodup)
    (hTg : "Total_forcing" ∉ i.gas.keys) (hout : (tops.outputs.map Prod.fst ++ forcOutputList).Nodup)
    (ht : RunTables i.concIn i.emis (Dict.set (Factory.checkPamset pamset) "conc_run" (.bool i.concRun))
      d0.nystart es d0.nyend)
    (hc : construct cops i pamset carb = .ok h0) (hd0 : d0.source = .handler h0)
    (ha : After cops tops d0 ps d) (hr : run cops tops d p = .ok (d1, t)) (hg : d1.source = .handler g)
    {y : ℤ} (hy1 : d0.nystart ≤ y) (hy2 : y ≤ d0.nyend)
    (hp : ∀ rows, i.pertForc = some rows → ∀ q ∈ rows,
      Yearly i.gas q.component ∨ q.component = "Total_forcing" → q.year ≠ y) :
    ∃ (nh sh w : ℝ) (val : String → ℝ), CalledWith tops d0 d1 y nh sh w ∧ 0 ≤ w ∧ w ≤ 1 ∧
      (∀ k, Yearly i.gas k → ∃ c ∈ reportForcing g d0.nystart, c.1 = columnName k ∧ c.2 y = some (val k)) ∧
      let comps := i.gas.keys.filter (fun k => Yearly i.gas k)
      let all := (comps.map (fun k => |val k|)).sum
      let aerosols := ((comps.filter (fun k => IsAerosol k)).map (fun k => |val k|)).sum
      (all = 0 → w = 0) ∧ (all ≠ 0 → w = aerosols / all) := by
  obtain ⟨h, emis, tr, H, hd, hsame, htr, hreset, hH, hyr⟩ := run_years yearLaw_real ht hc hd0 ha hr hg
  obtain ⟨b, luc, sun, r, values, vn, vs, Y, HY, hluc, hsun⟩ := hyr y hy1 hy2
  obtain ⟨k1, k2, k3, k4, k5, k6, k7⟩ := run_forcing hgas hTg ht hc Y hy1 hy2
  have kc := run_components hgas hTg ht hc Y
  have hnp : NoPert b y := by
    intro rows hrows q hq hm
    rw [Y.sameB.pert, Y.pert] at hrows
    refine hp rows hrows q hq ?_
    rw [kc] at hm
    rcases List.mem_append.1 hm with hm | hm
    · exact Or.inl (by simpa using (List.mem_filter.1 hm).2)
    · exact Or.inr (by simpa using hm)
  have hcomps : b.forcKeys.filter (fun k => k ≠ "Total_forcing") =
      i.gas.keys.filter (fun k => Yearly i.gas k) := by
    rw [kc, List.filter_append, List.filter_filter]
    have e1 : (["Total_forcing"].filter (fun k => decide (k ≠ "Total_forcing"))) = [] := by simp
    rw [e1, List.append_nil]
    apply List.filter_congr
    intro k hk
    have : k ≠ "Total_forcing" := by rintro rfl; exact hTg hk
    simp [this]
  have hns : d.nystart = d0.nystart := by rw [hsame]
  obtain ⟨w0, w1⟩ := C08_range_partial Y.forc k1 hnp
  have hfr := C08_fraction_partial Y.forc k5 k1 hnp
  simp only at hfr
  rw [hcomps] at hfr
  refine ⟨r.nh, r.sh, r.wAero, fun k => (H (y + 1)).forc k (y - d0.nystart).toNat, ?_, w0, w1, ?_, hfr⟩
  · exact calledWith_year hsame hout htr HY hy1 hy2
  · intro k hk
    have hkb : k ∈ b.forcKeys := by
      rw [kc]
      refine List.mem_append_left _ (List.mem_filter.2 ⟨?_, by simpa using hk⟩)
      obtain ⟨x, hx, -⟩ := hk
      exact (get?_isSome_iff _ _).1 ⟨x, hx⟩
    refine ⟨(reportName k, fun z => if z < d0.nystart ∨ g.years.length ≤ (z - d0.nystart).toNat then none
      else some (g.forc k (z - d0.nystart).toNat)), ?_, rfl, ?_⟩
    · unfold reportForcing
      refine List.mem_append_left _ (List.mem_map.2 ⟨k, ?_, rfl⟩)
      rw [Y.sameG.forcKeys, Y.sameC.forcKeys]
      exact hkb
    · have hgy : g.years.length = (d0.nyend + 1 - d0.nystart).toNat := by
        rw [Y.sameG.years, Y.sameC.years, Y.sameB.years, Y.years, pyRange_length]
      simp only
      rw [if_neg (by rw [hgy]; omega), Y.forcY]

end

/-! ## The hypotheses are met: the last of three runs with aerosols, ozone and perturbations -/

section
open Verif.Exec Verif.Model.ThermalInst Verif.Model.CarbonInst

theorem rich_case (b : Bool) : ∃ h0 d d1 t g, construct boxOps (richInputs b) richPam none = .ok h0 ∧
    RunTables (richInputs b).concIn (richInputs b).emis
      (Dict.set (Factory.checkPamset richPam) "conc_run" (.bool (richInputs b).concRun)) 1998 2000 2003 ∧
    After boxOps twoLayerOps (richDriver h0) (richRuns.take 2) d ∧
    run boxOps twoLayerOps d ⟨none, none, some [("beta_f", .flt 1)]⟩ = .ok (d1, t) ∧ d1.source = .handler g := by
  obtain ⟨h0, d1, hc, ha⟩ := rich_after_box b
  obtain ⟨p1, p2, p3, -⟩ := rich_pams
  obtain ⟨ps, hps⟩ : ∃ ps, richRuns = ps := ⟨_, rfl⟩
  rw [hps] at ha
  cases ha with
  | fresh => simp [richRuns] at hps
  | @next ps p d d1 t hprev hr =>
    have h2 : richRuns = richRuns.take 2 ++ [⟨none, none, some [("beta_f", .flt 1)]⟩] := rfl
    rw [h2] at hps
    obtain ⟨e1, e2⟩ := List.append_inj' hps rfl
    rw [List.cons.injEq] at e2
    obtain ⟨h, hd, -⟩ := after_spec yearLaw_real (rfl : (richDriver h0).source = .handler h0) hprev (fun _ => True)
      trivial (fun _ _ _ _ _ _ _ => trivial) (fun _ _ _ _ _ _ => trivial)
    obtain ⟨g0, g, -, hg, -⟩ := run_handler_spec hd hr
    refine ⟨h0, d, d1, t, g, hc, (rich_tables b).run p1 p2 p3, ?_, ?_, hg⟩
    · rw [e1]; exact hprev
    · rw [e2.1]; exact hr

theorem twoLayer_names : ((twoLayerOps (F := ℝ)).outputs.map Prod.fst ++ forcOutputList).Nodup := by
  simp [twoLayerOps, twoLayerOutputs, forcOutputList]

theorem rich_once (b : Bool) : (richInputs b).gas.keys.Nodup ∧ "Total_forcing" ∉ (richInputs b).gas.keys :=
  ⟨rich_gases.once, rich_gases.notTotal⟩

theorem rich_noJust : NoJustOne richPam (richRuns.take 2) ⟨none, none, some [("beta_f", .flt 1)]⟩ := by
  refine ⟨by simp [richPam, Dict.keys], ?_⟩
  intro q hq
  simp only [richRuns, List.take_succ_cons, List.take_zero, List.cons_append, List.nil_append, List.mem_cons,
    List.not_mem_nil, or_false] at hq
  rcases hq with rfl | rfl | rfl <;> simp [Dict.keys]

/-- `C06_run` in 2002, the year of a forcing perturbation of CO2: the total is the sum of the columns. -/
example (b : Bool) : ∃ (d1 : Driver ℝ (BoxM ℝ)) (g : Handler ℝ (BoxM ℝ)) (tot nh sh w : ℝ), d1.source = .handler g ∧
    (∃ c ∈ reportForcing g 1998, c.1 = "Total_forcing" ∧ c.2 2002 = some tot) ∧
    tot = ((componentColumns g 1998).map (fun c => (c.2 2002).getD 0)).sum ∧ (nh + sh) / 2 = tot + 1 ∧
    ∃ h0, CalledWith twoLayerOps (richDriver h0) d1 2002 nh sh w := by
  obtain ⟨h0, d, d1, t, g, hc, ht, ha, hr, hg⟩ := rich_case b
  obtain ⟨-, tot, sun, nh, sh, w, h1, -, h3, h4, h5, h6⟩ := C06_run (d0 := richDriver h0) (rich_once b).1 (rich_once b).2
    twoLayer_names ht hc rfl ha hr hg rich_noJust (y := 2002) (by simp [richDriver]) (by simp [richDriver])
  have hs : sun = 1 := by simpa [richDriver] using h4.symm
  subst hs
  refine ⟨d1, g, tot, nh, sh, w, hg, h1, ?_, h5, h0, h6⟩
  rw [h3]
  simp only [richDriver]
  rw [show pertOf (richInputs b).pertForc "Total_forcing" 2002 = 0 by
    simp [richInputs, pertOf, pertSum], add_zero]

/-- `C08_run_partial` in 2003, with four aerosols in the run. -/
example (b : Bool) : ∃ (d1 : Driver ℝ (BoxM ℝ)) (nh sh w : ℝ) (h0 : Handler ℝ (BoxM ℝ)),
    CalledWith twoLayerOps (richDriver h0) d1 2003 nh sh w ∧ 0 ≤ w ∧ w ≤ 1 ∧ Yearly richGas "BMB_AEROS" := by
  obtain ⟨h0, d, d1, t, g, hc, ht, ha, hr, hg⟩ := rich_case b
  obtain ⟨nh, sh, w, val, h1, h2, h3, -⟩ := C08_run_partial (d0 := richDriver h0) (rich_once b).1 (rich_once b).2
    twoLayer_names ht hc rfl ha hr hg (y := 2003) (by simp [richDriver]) (by simp [richDriver]) (by
      intro rows h q hq _
      simp only [richInputs, Option.some.injEq] at h
      subst h
      simp only [List.mem_cons, List.not_mem_nil, or_false] at hq
      subst hq
      decide)
  exact ⟨d1, nh, sh, w, h0, h1, h2, h3, _, rfl, Or.inl rfl, by decide, by decide⟩

end
end Verif.Props
