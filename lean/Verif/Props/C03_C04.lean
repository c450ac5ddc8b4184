import Verif.Lemmas.CarbonRerun
import Verif.Props.C16
import Verif.Props.C01_C02
import Verif.Py.RealInst

/-!
# C03 — a re-run does not depend on earlier runs; C04 — fixed years, sub-steps and run mode

`After cops tops d0 ps d` (`Verif/Spec/History.lean`) says that the instance `d` is the new instance
`d0` after running the parameter sets `ps`. A history consists of runs that succeed.

C03 holds without restriction when forcing is prescribed (`C03_forcing_run`), and for the thermal and
the required emission/concentration parameters (`C03_emiconc_in_force`). It fails for the carbon cycle
parameters and for `just_one`, which stay from earlier runs (`C03_carbon_false`, `C03_default_carbon_false`,
`C03_just_one_false`). `C03_box_partial` and `C03_default_carbon_partial` show that nothing else sticks:
if the last run gives every carbon parameter (and `just_one`) that an earlier run gave, the results are
those of a new instance.
-/

namespace Verif.Props
open Verif.Py Verif.Py.Dict Verif.Model Verif.Model.Handler Verif.Model.Driver Verif.Model.CarbonInst Verif.Spec

/-! ## Values that are equal for Python -/

theorem pyEq_toF {a b : PyVal ℝ} (h : PyVal.pyEq a b = true) : a.toF = b.toF := by
  cases a <;> cases b <;>
    simp_all [PyVal.pyEq, PyVal.toI, PyVal.toF, MathFn.isEq, MathFn.ofInt] <;> first | exact_mod_cast h | skip

theorem yearLaw_real : YearLaw ℝ := by
  intro a b h yr
  cases a <;> cases b <;>
    simp_all [PyVal.pyEq, PyVal.toI, PyVal.toF, yearLt, MathFn.isEq, MathFn.ofInt] <;>
    first
      | (rw [← h]; norm_cast; done)
      | (rw [h]; norm_cast; done)
      | (split <;> norm_cast; done)
      | skip

theorem yearLaw_rat : YearLaw ℚ := by
  intro a b h yr
  cases a <;> cases b <;>
    simp_all [PyVal.pyEq, PyVal.toI, PyVal.toF, yearLt, MathFn.isEq, MathFn.ofInt] <;>
    first
      | (rw [← h]; norm_cast; done)
      | (rw [h]; norm_cast; done)
      | (split <;> norm_cast; done)
      | skip

section
variable {F κ τ : Type} [Add F] [Sub F] [Mul F] [Div F] [Neg F] [OfScientific F] [LT F] [DecidableLT F]
  [MathFn F]

/-! ## C03: prescribed forcing -/

/-- C03 for prescribed forcing: after any history, a run gives the results of the same run of the new
instance. -/
theorem C03_forcing_run {cops : CarbonOps F κ} {tops : ThermalOps F τ} {d0 d d1 d1' : Driver F κ}
    {ps : List (RunPams F)} {rf : Forcing F} {p : RunPams F} {t t' : τ}
    (hnd : (tops.outputs.map Prod.fst ++ forcOutputList).Nodup) (hd0 : d0.source = .forcing rf)
    (ha : After cops tops d0 ps d)
    (hr0 : run cops tops d0 p = .ok (d1, t)) (hr : run cops tops d p = .ok (d1', t')) :
    ∀ z, d0.nystart ≤ z → z ≤ d0.nyend →
      ∀ o ∈ tops.outputs.map Prod.fst ++ forcOutputList,
        entry d1'.results o (z - d0.nystart).toNat = entry d1.results o (z - d0.nystart).toNat := by
  have hsame : d.source = .forcing rf ∧ d = { d0 with source := d.source, results := d.results } := by
    clear hr hr0
    induction ha with
    | fresh => exact ⟨hd0, rfl⟩
    | @next ps p d d1 t _ hr ih =>
      obtain ⟨tr, ht⟩ := run_trace hr
      have hle : d.nystart ≤ d.nyend + 1 := by
        have := (initialise_spec (startRun_spec ht.start).1).1; omega
      have key : ∀ n : ℕ, d.nystart + n ≤ d.nyend + 1 → (tr (d.nystart + n)).source = .forcing rf := by
        intro n
        induction n with
        | zero =>
          intro _
          have := (startRun_spec ht.start).2.2.1
          rw [ih.1] at this
          unfold resetSource at this
          rw [Except.ok.injEq] at this
          simpa using this.symm
        | succ n ihn =>
          intro hn
          push_cast at hn
          obtain ⟨f, vn, vs, values, e, -⟩ := yearStep_spec (ht.step (d.nystart + n) (by omega) (by omega))
          rw [ihn (by omega)] at e
          unfold yearForcing at e
          simp only [bind_eq_ok] at e
          obtain ⟨a, -, e⟩ := e
          rw [pure_ok, Except.ok.injEq, Prod.mk.injEq] at e
          rw [show d.nystart + ((n + 1 : ℕ) : ℤ) = d.nystart + n + 1 by push_cast; ring]
          exact e.2.symm
      have hlast := key (d.nyend + 1 - d.nystart).toNat (by omega)
      rw [show d.nystart + ((d.nyend + 1 - d.nystart).toNat : ℤ) = d.nyend + 1 by omega] at hlast
      refine ⟨by rw [ht.last.1]; exact hlast, ?_⟩
      have e1 := ht.last.1
      have e2 := ih.2
      rw [e1]
      rw [e2]
  exact fun z z1 z2 => C16_forcing_run hnd (y := d0.nyend)
    (by rw [hsame.2]; exact ⟨rfl, rfl, rfl, fun _ _ => rfl, fun _ _ => rfl, fun _ _ => rfl, fun _ _ => rfl⟩)
    hd0 hsame.1 (by cases rf; exacts [fun _ _ => rfl, ⟨rfl, rfl, fun _ _ _ _ _ => rfl⟩]) rfl hr0 hr z z1 z2 z2

/-! ## C03: the parameters in force -/

/-- C03: whatever the state of the handler, after the reset for a run each required parameter that can
change has the run's value, or the documented default if the run gives none or a value that is not a
number. (The three aerosol coefficients are then set to zero if regional aerosols replace them; that
depends on the gas table only, see C55.) -/
theorem C03_emiconc_in_force {cops : CarbonOps F κ} {h g : Handler F κ} {p q : Option (Dict (PyVal F))}
    (hp : WF (p.getD [])) (e : resetWithNewPams cops h p q = .ok g) {k : String}
    (hk : k ∈ ["qbmb", "qo3", "qdirso2", "qindso2", "qbc", "qoc", "qh2o_ch4", "ref_yr", "qnmvoc", "qnh3", "qnox"])
    (hz : k ∉ globalAerosols.map Prod.snd) :
    g.pam.get? k = sanitisedValue (Dict.get? (p.getD []) k) (Dict.get? Factory.handlerRequired k) False := by
  obtain ⟨pam, c, h1, -, rfl⟩ := reset_spec e
  have hreq : k ∈ Dict.keys (Factory.handlerRequired (F := F)) := by
    simp only [Factory.handlerRequired, Dict.keys, List.map_cons, List.map_nil]
    revert hk
    exact fun hk => List.mem_of_mem_take (i := 11) hk
  have hcc : k ∉ pamsCantChange := by
    intro hc
    revert hk
    simp only [pamsCantChange, List.mem_cons, List.not_mem_nil, or_false] at hc
    rcases hc with rfl | rfl | rfl | rfl | rfl <;> decide
  have hlm : "lifetime_mode" ≠ k := by rintro rfl; revert hk; decide
  have hcm : "carbon_cycle_model" ≠ k := by rintro rfl; revert hk; decide
  simp only
  rw [avoid_get? _ _ _ hz, consistency_get? h1, if_neg hcc]
  obtain ⟨dv, hd⟩ := (get?_isSome_iff _ _).2 hreq
  unfold Factory.checkPamset
  simp only
  have hwf : ∀ (d : Dict (PyVal F)) (b : String) (v : PyVal F), WF d → WF (if d.has b then d else d.set b v) := by
    intro d b v h; split; exacts [h, WF_set _ _ _ h]
  have hget : ∀ (d : Dict (PyVal F)) (b : String) (v : PyVal F), b ≠ k →
      Dict.get? (if d.has b then d else d.set b v) k = Dict.get? d k := by
    intro d b v h; split; exacts [rfl, by rw [get?_set, if_neg h]]
  rw [C01_value _ _ _ WF_handlerRequired (hwf _ _ _ (hwf _ _ _ hp)), hget _ _ _ hcm, hget _ _ _ hlm, hd]
  unfold sanitisedValue
  simp only
  cases Dict.get? (p.getD []) k with
  | none => rfl
  | some v => simp only; split <;> rfl

/-- C03: the methane lifetime mode in force is the run's, or the default. -/
theorem C03_lifetime_mode {cops : CarbonOps F κ} {h g : Handler F κ} {p q : Option (Dict (PyVal F))}
    (hp : WF (p.getD [])) (e : resetWithNewPams cops h p q = .ok g) :
    g.pam.get? "lifetime_mode" = (Dict.get? (p.getD []) "lifetime_mode").or (some (.str "TAR")) := by
  obtain ⟨pam, c, h1, -, rfl⟩ := reset_spec e
  simp only
  rw [avoid_get? _ _ _ (by decide), consistency_get? h1, if_neg (by decide)]
  unfold Factory.checkPamset
  simp only
  have hwf : ∀ (d : Dict (PyVal F)) (b : String) (v : PyVal F), WF d → WF (if d.has b then d else d.set b v) := by
    intro d b v h; split; exacts [h, WF_set _ _ _ h]
  rw [C01_value _ _ _ WF_handlerRequired (hwf _ _ _ (hwf _ _ _ hp))]
  have hn : Dict.get? (Factory.handlerRequired (F := F)) "lifetime_mode" = none := by
    rw [get?_eq_none_iff]
    simp only [Factory.handlerRequired, Dict.keys, List.map_cons, List.map_nil]
    decide
  have hu : "lifetime_mode" ∈ Dict.keys (Factory.handlerUsed (F := F)) := by
    simp only [Factory.handlerUsed, Dict.keys, List.map_cons, List.map_nil]
    decide
  rw [hn]
  unfold sanitisedValue
  simp only [if_pos hu]
  have h2 : ∀ (d : Dict (PyVal F)) (v : PyVal F), Dict.get? (if d.has "carbon_cycle_model" then d
      else d.set "carbon_cycle_model" v) "lifetime_mode" = Dict.get? d "lifetime_mode" := by
    intro d v; split; exacts [rfl, by rw [get?_set, if_neg (by decide)]]
  rw [h2]
  split
  · rename_i hh
    rw [Dict.has_iff, ← get?_isSome_iff] at hh
    obtain ⟨v, hv⟩ := hh
    rw [hv]; rfl
  · rename_i hh
    rw [Dict.has_iff, ← get?_isSome_iff, not_exists] at hh
    have hh : Dict.get? (p.getD []) "lifetime_mode" = none := by
      cases hv : Dict.get? (p.getD []) "lifetime_mode" with
      | none => rfl
      | some v => exact absurd hv (hh v)
    rw [get?_set, if_pos rfl, hh]; rfl

/-! ## C03: whole runs -/

theorem conc_nodup {cops : CarbonOps F κ} {i : Inputs F} {pamset carb : Option (Dict (PyVal F))}
    {h : Handler F κ} (hgas : i.gas.keys.Nodup) (e : construct cops i pamset carb = .ok h) :
    (concKeysOf h.gas h.prec.spicy).Nodup := by
  obtain ⟨ns1, ne1, emis, clbr, prec, pre, k0, k, h1, h2, h3, h4, h5, h6, h7, h8, rfl⟩ := construct_spec e
  obtain ⟨t, -, -, hs⟩ := precalculate_pert h5
  simp only [hs]
  unfold concKeysOf
  exact List.Nodup.filter _ (List.Nodup.filter _ hgas)

theorem construct_years {cops : CarbonOps F κ} {i : Inputs F} {pamset carb : Option (Dict (PyVal F))}
    {h : Handler F κ} (e : construct cops i pamset carb = .ok h) {ns ne : ℤ}
    (h1 : pamI (Factory.checkPamset pamset) "nystart" = .ok ns)
    (h2 : pamI (Factory.checkPamset pamset) "nyend" = .ok ne) : h.years = pyRange ns (ne + 1) := by
  obtain ⟨ns1, ne1, emis, clbr, prec, pre, k0, k, e1, e2, -, -, -, -, -, -, rfl⟩ := construct_spec e
  rw [h1, Except.ok.injEq] at e1
  rw [h2, Except.ok.injEq] at e2
  subst e1 e2
  rfl

omit [Add F] [Sub F] [Mul F] [LT F] [DecidableLT F] [MathFn F] in
theorem concRun_notin : "conc_run" ∉ Dict.keys (Factory.checkPamset (F := F) none) := by
  unfold Factory.checkPamset cutAndCheckPamset
  rw [mem_keys_checkNumeric, mem_keys_cut]
  simp [Factory.handlerRequired, Dict.keys, Dict.has, Dict.get?, Dict.set]

theorem concRun_constructed {cops : CarbonOps F κ} {i : Inputs F} {pamset carb : Option (Dict (PyVal F))}
    {h : Handler F κ} (e : construct cops i pamset carb = .ok h) :
    h.pam.get? "conc_run" = some (.bool i.concRun) := by
  obtain ⟨ns1, ne1, emis, clbr, prec, pre, k0, k, e1, e2, -, -, -, -, -, -, rfl⟩ := construct_spec e
  simp only
  rw [avoid_get? _ _ _ (by decide), get?_set, if_pos rfl]

/-- The results of two runs of the years `ns..ne` are equal: every result series, and the reported
concentrations and forcings. -/
def SameResults (tops : ThermalOps F τ) (ns ne : ℤ) (d1 d1' : Driver F κ) : Prop :=
  ∃ g g', d1.source = .handler g ∧ d1'.source = .handler g' ∧
    ∀ z, ns ≤ z → z ≤ ne →
      (∀ o ∈ tops.outputs.map Prod.fst ++ forcOutputList,
        entry d1'.results o (z - ns).toNat = entry d1.results o (z - ns).toNat) ∧
      columnsAt (reportConc g') z = columnsAt (reportConc g) z ∧
      columnsAt (reportForcing g' ns) z = columnsAt (reportForcing g ns) z

/-- C03 with the box carbon cycle, for last runs that give every carbon parameter, and `just_one`, that
some earlier run gave. -/
theorem C03_box_partial (law : YearLaw F) {tops : ThermalOps F τ} {d0 d d1 d1' : Driver F (BoxM F)}
    {i : Inputs F} {pamset carb : Option (Dict (PyVal F))} {h0 : Handler F (BoxM F)}
    {ps : List (RunPams F)} {p : RunPams F} {t t' : τ}
    (hnd : (tops.outputs.map Prod.fst ++ forcOutputList).Nodup) (hgas : i.gas.keys.Nodup)
    (hc : construct boxOps i pamset carb = .ok h0) (hd0 : d0.source = .handler h0)
    (hns : pamI (Factory.checkPamset pamset) "nystart" = .ok d0.nystart)
    (hne : pamI (Factory.checkPamset pamset) "nyend" = .ok d0.nyend) (hle : d0.nystart ≤ d0.nyend)
    (ha : After boxOps tops d0 ps d)
    (hjust : (∀ p' ∈ ps, "just_one" ∉ Dict.keys (p'.emiconc.getD [])) ∨
      "just_one" ∈ Dict.keys (p.emiconc.getD []))
    (hcar : ∀ x ∈ Dict.keys (boxRequired (F := F)), (∃ p' ∈ ps, BoxGives p'.carbon x) → BoxGives p.carbon x)
    (hr0 : run boxOps tops d0 p = .ok (d1, t)) (hr : run boxOps tops d p = .ok (d1', t')) :
    SameResults tops d0.nystart d0.nyend d1 d1' := by
  obtain ⟨h, hd, hP, hk, hsame⟩ := after_spec law hd0 ha (BoxKept (ps.map (·.carbon)) h0.carbon)
    ⟨rfl, fun _ _ => rfl⟩
    (fun k y em fb r hP e => ⟨by rw [box_step e]; exact hP.keys, by rw [box_step e]; exact hP.pam⟩)
    (fun p' hp' k k' hP e => box_reset (List.mem_map_of_mem hp') hP e)
  refine rerun_agree law hnd hd0 hd hk hsame hle (construct_years hc hns hne) (conc_nodup hgas hc) hjust
    (box_fresh hP ?_ _ _) hr0 hr
  rintro x hx ⟨q, hq, hg⟩
  obtain ⟨p', hp', rfl⟩ := List.mem_map.1 hq
  exact hcar x hx ⟨p', hp', hg⟩

/-- C03 with the default carbon cycle, for last runs that give every carbon parameter (response
functions included), and `just_one`, that some earlier run gave. -/
theorem C03_default_carbon_partial (law : YearLaw F) {tops : ThermalOps F τ} {d0 d d1 d1' : Driver F (IR F)}
    {i : Inputs F} {pamset carb : Option (Dict (PyVal F))} {h0 : Handler F (IR F)}
    {ps : List (RunPams F)} {p : RunPams F} {t t' : τ}
    (hnd : (tops.outputs.map Prod.fst ++ forcOutputList).Nodup) (hgas : i.gas.keys.Nodup)
    (hc : construct irOps i pamset carb = .ok h0) (hd0 : d0.source = .handler h0)
    (hns : pamI (Factory.checkPamset pamset) "nystart" = .ok d0.nystart)
    (hne : pamI (Factory.checkPamset pamset) "nyend" = .ok d0.nyend) (hle : d0.nystart ≤ d0.nyend)
    (ha : After irOps tops d0 ps d)
    (hjust : (∀ p' ∈ ps, "just_one" ∉ Dict.keys (p'.emiconc.getD [])) ∨
      "just_one" ∈ Dict.keys (p.emiconc.getD []))
    (hcar : ∀ x ∈ irChangeable (F := F), (∃ p' ∈ ps, IRGives p'.carbon x) → IRGives p.carbon x)
    (hr0 : run irOps tops d0 p = .ok (d1, t)) (hr : run irOps tops d p = .ok (d1', t')) :
    SameResults tops d0.nystart d0.nyend d1 d1' := by
  obtain ⟨hf, hst, -, -⟩ := ir_construct hc hns hne
  obtain ⟨h, hd, hP, hk, hsame⟩ := after_spec law hd0 ha (IRKept (ps.map (·.carbon)) h0.carbon)
    ⟨rfl, rfl, rfl, fun _ _ => Iff.rfl, fun _ _ => rfl, hf⟩
    (fun k y em fb r hP e => ir_step hP e)
    (fun p' hp' k k' hP e => ir_reset (List.mem_map_of_mem hp') hP e)
  refine rerun_agree law hnd hd0 hd hk hsame hle (construct_years hc hns hne) (conc_nodup hgas hc) hjust
    ?_ hr0 hr
  rw [← hst]
  refine ir_fresh hf hP ?_ _
  rintro x hx ⟨q, hq, hg⟩
  obtain ⟨p', hp', rfl⟩ := List.mem_map.1 hq
  exact hcar x hx ⟨p', hp', hg⟩

/-- C03 for concentration-driven runs with either carbon cycle, and any other whose reset succeeds: the
carbon cycle parameters do not matter. -/
theorem C03_conc_run_partial (law : YearLaw F) {cops : CarbonOps F κ} {tops : ThermalOps F τ} {d0 d d1 d1' : Driver F κ}
    {i : Inputs F} {pamset carb : Option (Dict (PyVal F))} {h0 : Handler F κ}
    {ps : List (RunPams F)} {p : RunPams F} {t t' : τ}
    (hnd : (tops.outputs.map Prod.fst ++ forcOutputList).Nodup) (hgas : i.gas.keys.Nodup)
    (hconc : i.concRun = true)
    (hc : construct cops i pamset carb = .ok h0) (hd0 : d0.source = .handler h0)
    (hns : pamI (Factory.checkPamset pamset) "nystart" = .ok d0.nystart)
    (hne : pamI (Factory.checkPamset pamset) "nyend" = .ok d0.nyend) (hle : d0.nystart ≤ d0.nyend)
    (ha : After cops tops d0 ps d)
    (hjust : (∀ p' ∈ ps, "just_one" ∉ Dict.keys (p'.emiconc.getD [])) ∨
      "just_one" ∈ Dict.keys (p.emiconc.getD []))
    (hr0 : run cops tops d0 p = .ok (d1, t)) (hr : run cops tops d p = .ok (d1', t')) :
    SameResults tops d0.nystart d0.nyend d1 d1' := by
  obtain ⟨h, hd, -, hk, hsame⟩ := after_spec law hd0 ha (fun _ => True) trivial
    (fun _ _ _ _ _ _ _ => trivial) (fun _ _ _ _ _ _ => trivial)
  refine rerun_agree_of law hnd hd0 hd hk hsame hle (construct_years hc hns hne) (conc_nodup hgas hc) hjust
    ?_ hr0 hr
  intro g hg
  refine ⟨fun _ _ _ => True, fun _ _ _ _ => trivial, ?_, fun _ _ _ _ _ _ => trivial⟩
  rintro ⟨hs, -⟩
  exfalso
  have hcr := ((Kept.refl False h0).reset law hg (fun h => h.elim)).pam "conc_run" concRun_notin (by decide)
  rw [concRun_constructed hc, hconc] at hcr
  unfold pamB Dict.getE at hs
  rw [hcr] at hs
  simp [bind_ok, truthy] at hs

end

/-! ## C04 -/

/-- One reset keeps the numbers that cannot change. -/
theorem frozen_reset {κ : Type} {cops : CarbonOps ℝ κ} {h g : Handler ℝ κ} {p q : Option (Dict (PyVal ℝ))}
    (e : resetWithNewPams cops h p q = .ok g) {k : String} (hk : k ∈ ["nystart", "nyend", "emstart", "idtm"]) :
    (g.pam.get? k).bind PyVal.toF = (h.pam.get? k).bind PyVal.toF := by
  obtain ⟨pam, c, h1, -, rfl⟩ := reset_spec e
  have hm : k ∈ pamsCantChange := by
    simp only [List.mem_cons, List.not_mem_nil, or_false] at hk
    rcases hk with rfl | rfl | rfl | rfl <;> decide
  have hz : k ∉ globalAerosols.map Prod.snd := by
    simp only [List.mem_cons, List.not_mem_nil, or_false] at hk
    rcases hk with rfl | rfl | rfl | rfl <;> decide
  simp only
  rw [avoid_get? _ _ _ hz, consistency_get? h1, if_pos hm]
  cases Dict.get? (Factory.checkPamset p) k with
  | none => rfl
  | some v =>
    cases Dict.get? h.pam k with
    | none => rfl
    | some o =>
      simp only [Option.map_some, Option.bind_some]
      unfold keptValue
      split
      · rename_i h; exact pyEq_toF h
      · rfl

/-- C04: after any history of runs, with any parameter sets, the instance has the start, end and
emission-start years and the sub-steps of its construction (as numbers: an earlier run may have
replaced 2000 by 2000.0), its run mode and its list of years; and the driver its first and last year. -/
theorem C04_frozen {κ τ : Type} {cops : CarbonOps ℝ κ} {tops : ThermalOps ℝ τ} {d0 d : Driver ℝ κ}
    {i : Inputs ℝ} {pamset carb : Option (Dict (PyVal ℝ))} {h0 : Handler ℝ κ} {ps : List (RunPams ℝ)}
    (hc : construct cops i pamset carb = .ok h0) (hd0 : d0.source = .handler h0)
    (ha : After cops tops d0 ps d) :
    ∃ h, d.source = .handler h ∧ d.nystart = d0.nystart ∧ d.nyend = d0.nyend ∧ h.years = h0.years ∧
      h.pam.get? "conc_run" = some (.bool i.concRun) ∧
      ∀ k ∈ ["nystart", "nyend", "emstart", "idtm"],
        (h.pam.get? k).bind PyVal.toF = (Dict.get? (Factory.checkPamset pamset) k).bind PyVal.toF := by
  obtain ⟨h, hd, -, hk, hsame⟩ := after_spec yearLaw_real hd0 ha (fun _ => True) trivial
    (fun _ _ _ _ _ _ _ => trivial) (fun _ _ _ _ _ _ => trivial)
  refine ⟨h, hd, by rw [hsame], by rw [hsame], hk.years, ?_, ?_⟩
  · rw [hk.pam _ concRun_notin (by decide), concRun_constructed hc]
  · intro k hkk
    have hmain : (h.pam.get? k).bind PyVal.toF = (h0.pam.get? k).bind PyVal.toF := by
      clear hk hsame
      induction ha generalizing h with
      | fresh => rw [hd0] at hd; cases hd; rfl
      | @next ps p d d1 t ha hr ih =>
        obtain ⟨h', hd', -, -, -⟩ := after_spec yearLaw_real hd0 ha (fun _ => True) trivial
          (fun _ _ _ _ _ _ _ => trivial) (fun _ _ _ _ _ _ => trivial)
        obtain ⟨g, h1, e, e1, s, -, -, -⟩ := run_handler_spec hd' hr
        rw [hd] at e1
        cases e1
        rw [s.pam, frozen_reset e hkk, ih h' hd']
    rw [hmain]
    obtain ⟨ns1, ne1, emis, clbr, prec, pre, k0, k1, e1, e2, -, -, -, -, -, -, rfl⟩ := construct_spec hc
    simp only
    have hz : k ∉ globalAerosols.map Prod.snd := by
      simp only [List.mem_cons, List.not_mem_nil, or_false] at hkk
      rcases hkk with rfl | rfl | rfl | rfl <;> decide
    have hcr : "conc_run" ≠ k := by
      simp only [List.mem_cons, List.not_mem_nil, or_false] at hkk
      rcases hkk with rfl | rfl | rfl | rfl <;> decide
    rw [avoid_get? _ _ _ hz, get?_set, if_neg hcr]

/-- C04: nor does the comparison of any year with the emission start change. -/
theorem C04_emission_start {κ τ : Type} {cops : CarbonOps ℝ κ} {tops : ThermalOps ℝ τ} {d0 d : Driver ℝ κ}
    {h0 : Handler ℝ κ} {ps : List (RunPams ℝ)} (hd0 : d0.source = .handler h0)
    (ha : After cops tops d0 ps d) :
    ∃ h, d.source = .handler h ∧ ∀ yr, beforeStart h.pam yr = beforeStart h0.pam yr := by
  obtain ⟨h, hd, -, hk, -⟩ := after_spec yearLaw_real hd0 ha (fun _ => True) trivial
    (fun _ _ _ _ _ _ _ => trivial) (fun _ _ _ _ _ _ => trivial)
  exact ⟨h, hd, hk.before⟩

/-- C04: the default carbon cycle keeps its own copies of the sub-steps and years. -/
theorem C04_carbon_clock {τ : Type} {tops : ThermalOps ℝ τ} {d0 d : Driver ℝ (IR ℝ)} {i : Inputs ℝ}
    {pamset carb : Option (Dict (PyVal ℝ))} {h0 : Handler ℝ (IR ℝ)} {ps : List (RunPams ℝ)} {ns ne : ℤ}
    (hc : construct irOps i pamset carb = .ok h0) (hd0 : d0.source = .handler h0)
    (hns : pamI (Factory.checkPamset pamset) "nystart" = .ok ns)
    (hne : pamI (Factory.checkPamset pamset) "nyend" = .ok ne) (ha : After irOps tops d0 ps d) :
    ∃ h, d.source = .handler h ∧ h.carbon.nystart = ns ∧ h.carbon.years_tot = ne - ns + 1 ∧
      pamI (Factory.checkPamset pamset) "idtm" = .ok h.carbon.idtm := by
  obtain ⟨hf, e1, e2, e3⟩ := ir_construct hc hns hne
  obtain ⟨h, hd, hP, -, -⟩ := after_spec yearLaw_real hd0 ha (IRKept (ps.map (·.carbon)) h0.carbon)
    ⟨rfl, rfl, rfl, fun _ _ => Iff.rfl, fun _ _ => rfl, hf⟩
    (fun k y em fb r hP e => ir_step hP e)
    (fun p' hp' k k' hP e => ir_reset (List.mem_map_of_mem hp') hP e)
  exact ⟨h, hd, by rw [hP.nystart, e1], by rw [hP.years_tot, e2], by rw [hP.idtm, e3]⟩

/-! ## Runs that meet the hypotheses, and what sticks -/

open Verif.Exec Verif.Model.ThermalInst

/-- Two years, one carbon step per year. -/
def shortPam : Option (Dict (PyVal ℚ)) :=
  some [("nystart", .int 2000), ("nyend", .int 2001), ("emstart", .int 2001), ("idtm", .int 1)]

def shortInputs (concRun : Bool) : Inputs ℚ := toyInputs concRun risingEmis risingConc none none

def shortDriver {κ : Type} (h : Handler ℚ κ) : Driver ℚ κ := { toyDriver h [0, 0] [0, 0] with nyend := 2001 }

/-- The temperatures of 2001 in three runs: `p` on the new instance, then `q` on the new instance, then
`p` on the instance that ran `q`. -/
def threeRuns {κ : Type} (cops : CarbonOps ℚ κ) (concRun : Bool) (p q : RunPams ℚ) :
    Except PyErr (Option ℚ × Option ℚ × Option ℚ) := do
  let h ← construct cops (shortInputs concRun) shortPam none
  let r0 ← run cops twoLayerOps (shortDriver h) p
  let r1 ← run cops twoLayerOps (shortDriver h) q
  let r2 ← run cops twoLayerOps r1.1 p
  return (entry r0.1.results "dT_glob" 1, entry r1.1.results "dT_glob" 1, entry r2.1.results "dT_glob" 1)

/-- C03 as stated is false: with `cops`, the run `p` of an instance that ran `q` before differs from
the run `p` of the new instance. -/
def Sticks {κ : Type} (cops : CarbonOps ℚ κ) (p q : RunPams ℚ) : Prop :=
  ∃ (h0 : Handler ℚ κ) (d0 d d1 d1' : Driver ℚ κ) (t t' : TwoLayer.Pams ℚ × TwoLayer.State ℚ),
    construct cops (shortInputs false) shortPam none = .ok h0 ∧ d0 = shortDriver h0 ∧
    After cops twoLayerOps d0 [q] d ∧
    run cops twoLayerOps d0 p = .ok (d1, t) ∧ run cops twoLayerOps d p = .ok (d1', t') ∧
    entry d1'.results "dT_glob" 1 ≠ entry d1.results "dT_glob" 1

theorem sticks_of {κ : Type} {cops : CarbonOps ℚ κ} {p q : RunPams ℚ}
    (h : (match threeRuns cops false p q with
      | .ok r => decide (r.2.2 ≠ r.1)
      | _ => false) = true) : Sticks cops p q := by
  cases e : threeRuns cops false p q with
  | error _ => rw [e] at h; cases h
  | ok r =>
    rw [e] at h
    simp only [decide_eq_true_eq] at h
    unfold threeRuns at e
    simp only [bind_eq_ok] at e
    obtain ⟨h0, hc, r0, hr0, r1, hr1, r2, hr2, e⟩ := e
    rw [pure_ok, Except.ok.injEq] at e
    subst e
    exact ⟨h0, _, _, _, _, _, _, hc, rfl, .next (ps := []) .fresh hr1, hr0, hr2, h⟩

/-- C03 is false for the box carbon cycle: `beta_f` of an earlier run stays. -/
theorem C03_carbon_false : Sticks boxOps ⟨none, none, none⟩ ⟨none, none, some [("beta_f", .flt 1)]⟩ :=
  sticks_of (by decide +kernel)

/-- C03 is false for the default carbon cycle: `beta_f` of an earlier run stays. -/
theorem C03_default_carbon_false :
    Sticks irOps ⟨none, none, none⟩ ⟨none, none, some [("beta_f", .flt 1)]⟩ :=
  sticks_of (by decide +kernel)

/-- C03 is false for `just_one`: the restriction to one component stays. -/
theorem C03_just_one_false :
    Sticks boxOps ⟨none, none, none⟩ ⟨none, some [("just_one", .str "CO2")], none⟩ :=
  sticks_of (by decide +kernel)

/-- For every number type: the box carbon cycle still has the number an earlier run gave. -/
theorem C03_carbon_value_false {F : Type} [OfScientific F] [LT F] [DecidableLT F] [Add F] [Sub F] [Mul F]
    [Div F] [Neg F] [MathFn F] (k k1 k2 : BoxM F) (x : F)
    (hk : "beta_f" ∈ Dict.keys k.pam) (h1 : boxOps.reset k (some [("beta_f", .flt x)]) = .ok k1)
    (h2 : boxOps.reset k1 none = .ok k2) : k2.pam.get? "beta_f" = some (.flt x) := by
  simp only [boxOps, boxReset, Except.ok.injEq] at h1 h2
  subst h1 h2
  simp only [updatePamIfNumeric, List.foldl_cons, List.foldl_nil]
  rw [get?_updatePamStep, if_pos]
  exact ⟨rfl, by simp [boxRequired, Dict.keys], hk, rfl⟩

/-- The hypotheses of `C03_box_partial` are met by a history of two runs with different carbon, thermal
and other parameters (the last run gives `beta_f` again); the runs succeed. -/
theorem short_history : (match threeRuns boxOps false
      ⟨none, some [("qo3", .flt 1)], some [("beta_f", .flt 2)]⟩
      ⟨some [("lambda", .flt 1)], some [("qo3", .flt 3)], some [("beta_f", .flt 1)]⟩ with
    | .ok r => decide (r.2.2 = r.1 ∧ r.2.1 ≠ r.1)
    | _ => false) = true := by decide +kernel

example : ∃ (h0 : Handler ℚ (BoxM ℚ)) (d0 d d1 d1' : Driver ℚ (BoxM ℚ)) (t t' : TwoLayer.Pams ℚ × TwoLayer.State ℚ)
    (ps : List (RunPams ℚ)) (p : RunPams ℚ),
    ((twoLayerOps (F := ℚ)).outputs.map Prod.fst ++ forcOutputList).Nodup ∧
    (shortInputs false).gas.keys.Nodup ∧
    construct boxOps (shortInputs false) shortPam none = .ok h0 ∧ d0.source = .handler h0 ∧
    pamI (Factory.checkPamset shortPam) "nystart" = .ok d0.nystart ∧
    pamI (Factory.checkPamset shortPam) "nyend" = .ok d0.nyend ∧ d0.nystart ≤ d0.nyend ∧
    After boxOps twoLayerOps d0 ps d ∧ ps ≠ [] ∧
    (∀ p' ∈ ps, "just_one" ∉ Dict.keys (p'.emiconc.getD [])) ∧
    (∀ x ∈ Dict.keys (boxRequired (F := ℚ)), (∃ p' ∈ ps, BoxGives p'.carbon x) → BoxGives p.carbon x) ∧
    run boxOps twoLayerOps d0 p = .ok (d1, t) ∧ run boxOps twoLayerOps d p = .ok (d1', t') := by
  have h := short_history
  cases e : threeRuns boxOps false
      ⟨none, some [("qo3", .flt 1)], some [("beta_f", .flt 2)]⟩
      ⟨some [("lambda", .flt 1)], some [("qo3", .flt 3)], some [("beta_f", .flt 1)]⟩ with
  | error _ => rw [e] at h; cases h
  | ok r =>
    unfold threeRuns at e
    simp only [bind_eq_ok] at e
    obtain ⟨h0, hc, r0, hr0, r1, hr1, r2, hr2, e⟩ := e
    refine ⟨h0, _, _, _, _, _, _, _, _, by decide +kernel, by decide +kernel, hc, rfl, by
      show pamI (Factory.checkPamset shortPam) "nystart" = .ok 2000; decide +kernel, by
      show pamI (Factory.checkPamset shortPam) "nyend" = .ok 2001; decide +kernel, by
      show (2000 : ℤ) ≤ 2001; decide, .next (ps := []) .fresh hr1, by simp, ?_, ?_, hr0, hr2⟩
    · simp [Dict.keys]
    · simp [BoxGives, GivesNumber, PyVal.isNum]

/-- The same with the default carbon cycle. -/
theorem short_history_default : (match threeRuns irOps false
      ⟨none, some [("qo3", .flt 1)], some [("beta_f", .flt 2)]⟩
      ⟨some [("lambda", .flt 1)], some [("qo3", .flt 3)], some [("beta_f", .flt 1)]⟩ with
    | .ok r => decide (r.2.2 = r.1 ∧ r.2.1 ≠ r.1)
    | _ => false) = true := by decide +kernel

/-- A concentration run after one with other carbon parameters. -/
theorem short_history_conc : (match threeRuns boxOps true
      ⟨none, some [("qo3", .flt 1)], none⟩
      ⟨some [("lambda", .flt 1)], some [("qo3", .flt 3)], some [("beta_f", .flt 1)]⟩ with
    | .ok r => decide (r.2.2 = r.1 ∧ r.2.1 ≠ r.1)
    | _ => false) = true := by decide +kernel

/-- C04: a run that asks for other years and other sub-steps is done, and changes none of them. -/
theorem frozen_example : (match (do
      let h ← construct irOps (shortInputs false) shortPam none
      let r ← run irOps twoLayerOps (shortDriver h)
        ⟨none, some [("nystart", .int 1900), ("nyend", .int 2100), ("emstart", .flt 1950), ("idtm", .int 7),
          ("conc_run", .bool true)], none⟩
      return r : Except PyErr (Driver ℚ (IR ℚ) × (TwoLayer.Pams ℚ × TwoLayer.State ℚ))) with
    | .ok r => (match r.1.source with
      | .handler h => decide (pamI h.pam "nystart" = .ok 2000 ∧ pamI h.pam "nyend" = .ok 2001 ∧
          pamI h.pam "emstart" = .ok 2001 ∧ pamI h.pam "idtm" = .ok 1 ∧ pamB h.pam "conc_run" = .ok false ∧
          h.carbon.idtm = 1)
      | _ => false)
    | _ => false) = true := by decide +kernel

end Verif.Props
