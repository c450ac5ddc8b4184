import Verif.Spec.Session
import Verif.Lemmas.BatchForcing
import Verif.Lemmas.Asked
import Verif.Exec.RatRun
import Verif.Props.C03_C04
import Verif.Props.C83_runs

/-!
# C89 — the results of an instance describe its last run

`Used … cs s` (`Verif/Spec/Session.lean`): `s` is the instance after the calls `cs`. The results dictionary of an instance is
filled by every run and never emptied. The yearly series and the three tables of emissions, concentrations and forcing are
always those of the last run (when it was asked for a dictionary); the carbon cycle table is, if the last run asked for it or
no earlier one did (`C89_last_partial`). Otherwise the table of the earlier run is still there, beside the series of the last
one (`C89_carbon_false`), and after a run that wrote files all four tables are those from before (`C89_files_false`).
-/

namespace Verif.Props
open Verif.Py Verif.Py.Dict Verif.Model Verif.Model.Handler Verif.Model.Driver Verif.Spec
  Verif.Model.CarbonInst Verif.Model.CarbonOut Verif.Model.Results Verif.Model.Files Verif.Model.Session Verif.Model.ThermalInst

section
variable {F κ τ : Type} [Add F] [Sub F] [Mul F] [Div F] [Neg F] [OfScientific F] [LT F] [DecidableLT F]
  [MathFn F]

/-- The names of the tables of a run. -/
theorem runResults_tables {oops : OutputOps F κ} {tops : ThermalOps F τ} {d d' : Driver F κ} {b : Bool}
    {r : Reader.Results F} (e : runResults oops tops d b = .ok (r, d')) :
    r.series = d.results ∧ d'.results = d.results ∧ d'.source.isForcing = d.source.isForcing ∧
    (d.source.isForcing = true → r.tables = []) ∧
    (d.source.isForcing = false → ∃ em co fo, r.tables = [("emissions", em), ("concentrations", co), ("forcing", fo)] ++
      (if b = true then (r.tables.drop 3).take 1 else []) ∧
      (b = true → ∃ ca, r.tables = [("emissions", em), ("concentrations", co), ("forcing", fo), ("carbon cycle", ca)])) := by
  unfold runResults at e
  cases hs : d.source with
  | forcing rf =>
    rw [hs] at e
    simp only [Except.ok.injEq, Prod.mk.injEq] at e
    obtain ⟨rfl, rfl⟩ := e
    exact ⟨rfl, rfl, by rw [hs], fun _ => rfl, fun h => by cases h⟩
  | handler h =>
    rw [hs] at e
    simp only [bind_eq_ok] at e
    obtain ⟨⟨T, D⟩, hT, y0, -, fo, -, em0, -, em, -, co, -, e⟩ := e
    have hTD := carbonTable_spec hs hT
    obtain ⟨k, hD, -⟩ := hTD
    have hb : (b = true → ∃ t, T = some t) ∧ (b = false → T = none) := by
      unfold carbonTable at hT
      rw [hs] at hT
      simp only [bind_eq_ok] at hT
      obtain ⟨fbs, -, hT⟩ := hT
      cases b with
      | true =>
        simp only [if_true, bind_eq_ok] at hT
        obtain ⟨q, -, hT⟩ := hT
        rw [pure_ok, Except.ok.injEq, Prod.mk.injEq] at hT
        exact ⟨fun _ => ⟨_, hT.1.symm⟩, fun h => by cases h⟩
      | false =>
        simp only [Bool.false_eq_true, if_false] at hT
        rw [pure_ok, Except.ok.injEq, Prod.mk.injEq] at hT
        exact ⟨(fun h => by cases h), fun _ => hT.1.symm⟩
    cases b with
    | true =>
      obtain ⟨t, rfl⟩ := hb.1 rfl
      simp only at e
      rw [pure_ok, Except.ok.injEq, Prod.mk.injEq] at e
      obtain ⟨rfl, rfl⟩ := e
      subst hD
      exact ⟨rfl, rfl, rfl, (fun h => by cases h), fun _ => ⟨em, co, fo, rfl, fun _ => ⟨_, rfl⟩⟩⟩
    | false =>
      obtain rfl := hb.2 rfl
      simp only at e
      rw [pure_ok, Except.ok.injEq, Prod.mk.injEq] at e
      obtain ⟨rfl, rfl⟩ := e
      subst hD
      exact ⟨rfl, rfl, rfl, (fun h => by cases h), fun _ => ⟨em, co, fo, rfl, fun h => by cases h⟩⟩

/-- The tables of a run do not depend on the series the instance held before. -/
theorem runResults_congr {oops : OutputOps F κ} {tops : ThermalOps F τ} {d d' : Driver F κ} {b : Bool}
    {r : Reader.Results F} {q : Dict (List F)} (h : SameFor (tops.outputs.map Prod.fst ++ forcOutputList) d.results q)
    (e : runResults oops tops d b = .ok (r, d')) :
    runResults oops tops { d with results := q } b = .ok (⟨r.tables, q⟩, { d' with results := q }) := by
  have hkey : ∀ k o, PubUtils.getFirstKey tops.outputs k = .ok o → q.getE o = d.results.getE o := by
    intro k o ho
    have hm : o ∈ tops.outputs.map Prod.fst := by
      unfold PubUtils.getFirstKey at ho
      split at ho
      · cases ho
      · rename_i x xs hx
        rw [Except.ok.injEq] at ho
        subst ho
        have : x ∈ (tops.outputs.filter (fun p => p.2 == k)).map Prod.fst := by rw [hx]; exact List.mem_cons_self
        obtain ⟨p, hp, rfl⟩ := List.mem_map.1 this
        exact List.mem_map_of_mem (List.mem_filter.1 hp).1
    unfold Dict.getE
    rw [h o (List.mem_append_left _ hm)]
  have hfb : feedbackSeries tops d.feedbackList q = feedbackSeries tops d.feedbackList d.results := by
    unfold feedbackSeries
    cases d.feedbackList with
    | none => rfl
    | some ks =>
      simp only
      apply mapM_congr_left
      intro k _
      cases hk : PubUtils.getFirstKey tops.outputs k with
      | error x => rfl
      | ok o => simp only [bind_ok, hkey k o hk]
  clear h hkey
  obtain ⟨ns, ne, src, fl, vn, vs, su, lu, res⟩ := d
  unfold runResults at e ⊢
  cases src with
  | forcing rf =>
    simp only [Except.ok.injEq, Prod.mk.injEq] at e
    obtain ⟨rfl, rfl⟩ := e
    rfl
  | handler hh =>
    simp only [bind_eq_ok] at e
    obtain ⟨⟨T, D⟩, hT, y0, h1, fo, h2, em0, h3, em, h4, co, h5, e⟩ := e
    have hT' : carbonTable oops tops ⟨ns, ne, .handler hh, fl, vn, vs, su, lu, q⟩ b =
        .ok (T, { D with results := q }) := by
      unfold carbonTable at hT ⊢
      simp only [bind_eq_ok] at hT
      obtain ⟨fbs, g1, hT⟩ := hT
      simp only at hfb g1 ⊢
      rw [hfb, g1, bind_ok]
      cases b with
      | true =>
        simp only [if_true, bind_eq_ok] at hT ⊢
        obtain ⟨c, g2, hT⟩ := hT
        rw [pure_ok, Except.ok.injEq, Prod.mk.injEq] at hT
        refine ⟨c, g2, ?_⟩
        rw [pure_ok, ← hT.1, ← hT.2]
      | false =>
        simp only [Bool.false_eq_true, if_false] at hT ⊢
        rw [pure_ok, Except.ok.injEq, Prod.mk.injEq] at hT
        rw [pure_ok, ← hT.1, ← hT.2]
    simp only [hT', h1, h2, h3, h4, h5, bind_ok]
    cases T with
    | none =>
      simp only at e ⊢
      rw [pure_ok, Except.ok.injEq, Prod.mk.injEq] at e
      rw [pure_ok, ← e.1, ← e.2]
    | some t =>
      simp only at e ⊢
      rw [pure_ok, Except.ok.injEq, Prod.mk.injEq] at e
      rw [pure_ok, ← e.1, ← e.2]

theorem callRun_dict {fmt : F → String} {cwd : String} {cops : CarbonOps F κ} {oops : OutputOps F κ}
    {tops : ThermalOps F τ} {s s1 : Session F κ} {c : Call F} {b : Bool} (hc : c.out = .dict b)
    (e : callRun fmt cwd cops oops tops s c = .ok s1) :
    ∃ d t r, run cops tops s.driver c.pams = .ok (d, t) ∧ runResults oops tops d b = .ok (r, s1.driver) ∧
      s1.tables = s.tables.update r.tables := by
  unfold callRun at e
  rw [hc] at e
  simp only [bind_eq_ok] at e
  obtain ⟨⟨d, t⟩, hd, ⟨r, d'⟩, hr, e⟩ := e
  rw [pure_ok, Except.ok.injEq] at e
  subst e
  exact ⟨d, t, r, hd, hr, rfl⟩

theorem callRun_files {fmt : F → String} {cwd : String} {cops : CarbonOps F κ} {oops : OutputOps F κ}
    {tops : ThermalOps F τ} {s s1 : Session F κ} {c : Call F} {o : OutCfg} (hc : c.out = .files o)
    (e : callRun fmt cwd cops oops tops s c = .ok s1) :
    ∃ d t, run cops tops s.driver c.pams = .ok (d, t) ∧ (runFiles fmt cwd o oops tops d).2 = .ok s1.driver ∧
      s1.tables = s.tables := by
  unfold callRun at e
  rw [hc] at e
  simp only [bind_eq_ok] at e
  obtain ⟨⟨d, t⟩, hd, d', hr, e⟩ := e
  rw [pure_ok, Except.ok.injEq] at e
  subst e
  exact ⟨d, t, hd, hr, rfl⟩

/-- Writing the files keeps the series, and the kind of run. -/
theorem runFiles_keeps {fmt : F → String} {cwd : String} {o : OutCfg} {oops : OutputOps F κ} {tops : ThermalOps F τ}
    {d d' : Driver F κ} (e : (runFiles fmt cwd o oops tops d).2 = .ok d') :
    d'.results = d.results ∧ d'.source.isForcing = d.source.isForcing := by
  unfold runFiles at e
  simp only at e
  cases hw : (handlerFiles fmt cwd o oops tops d).2 with
  | error x => rw [hw] at e; cases e
  | ok d2 =>
    rw [hw] at e
    simp only at e
    have h2 : d2 = d' := by
      cases hv : (dataFiles fmt cwd o d2).2 with
      | error x => rw [hv] at e; cases e
      | ok u => rw [hv] at e; simpa [Except.map] using e
    subst h2
    unfold handlerFiles at hw
    cases hs : d.source with
    | forcing rf =>
      rw [hs] at hw
      simp only [Except.ok.injEq] at hw
      subst hw
      exact ⟨rfl, by rw [hs]⟩
    | handler h =>
      rw [hs] at hw
      simp only at hw
      split at hw
      · rename_i r hr
        simp only [Except.ok.injEq] at hw
        simp only [bind_eq_ok] at hr
        obtain ⟨⟨T, D⟩, hT, y0, -, fo, -, em0, -, em, -, co, -, hr⟩ := hr
        obtain ⟨k, hD, -⟩ := carbonTable_spec hs hT
        have hrD : r.2 = D := by
          cases T with
          | none =>
            simp only at hr
            rw [pure_ok, Except.ok.injEq] at hr
            rw [← hr]
          | some t =>
            simp only at hr
            rw [pure_ok, Except.ok.injEq] at hr
            rw [← hr]
        rw [← hw, hrD, hD]
        exact ⟨rfl, rfl⟩
      · cases hw

theorem run_kind {cops : CarbonOps F κ} {tops : ThermalOps F τ} {d d1 : Driver F κ} {p : RunPams F} {t : τ}
    (hnd : (tops.outputs.map Prod.fst ++ forcOutputList).Nodup) (hr : run cops tops d p = .ok (d1, t)) :
    d1.source.isForcing = d.source.isForcing := by
  cases hs : d.source with
  | forcing rf => rw [forcing_kept hnd hr hs]
  | handler h =>
    obtain ⟨g, h1, -, e, -⟩ := run_handler_spec hs hr
    rw [e]; rfl

/-- What the results of an instance can hold. -/
theorem used_inv {fmt : F → String} {cwd : String} {cops : CarbonOps F κ} {oops : OutputOps F κ}
    {tops : ThermalOps F τ} {d0 : Driver F κ} {cs : List (Call F)} {s : Session F κ}
    (hnd : (tops.outputs.map Prod.fst ++ forcOutputList).Nodup) (h : Used fmt cwd cops oops tops d0 cs s) :
    (∀ o, o ∉ tops.outputs.map Prod.fst ++ forcOutputList → s.driver.results.get? o = none) ∧
    (s.driver.source.isForcing = true → s.tables = []) ∧
    (∀ k, k ∉ ["emissions", "concentrations", "forcing", "carbon cycle"] → s.tables.get? k = none) ∧
    ((∀ c ∈ cs, c.out ≠ .dict true) → s.tables.get? "carbon cycle" = none) := by
  induction h with
  | fresh => exact ⟨fun _ _ => rfl, fun _ => rfl, fun _ _ => rfl, fun _ => rfl⟩
  | @next cs c s s1 _ e ih =>
    obtain ⟨i1, i2, i3, i4⟩ := ih
    cases hc : c.out with
    | files o =>
      obtain ⟨d, t, hr, hf, ht⟩ := callRun_files hc e
      obtain ⟨k1, k2⟩ := runFiles_keeps hf
      rw [ht, k1, k2, run_kind hnd hr]
      exact ⟨fun o ho => results_only hnd hr ho (i1 o ho), i2, i3, fun h => i4 fun c hc => h c (List.mem_append_left _ hc)⟩
    | dict b =>
      obtain ⟨d, t, r, hr, hf, ht⟩ := callRun_dict hc e
      obtain ⟨-, k1, k2, k3, k4⟩ := runResults_tables hf
      rw [ht, k1, k2, run_kind hnd hr]
      rw [run_kind hnd hr] at k3 k4
      refine ⟨fun o ho => results_only hnd hr ho (i1 o ho), fun hs => ?_, fun k hk => ?_, fun h => ?_⟩
      · rw [i2 hs, k3 hs]; rfl
      · rw [get?_update, i3 k hk, Option.or_none, get?_eq_none_iff, keys_reverse_mem]
        intro hm
        cases hs : s.driver.source.isForcing with
        | true => rw [k3 hs] at hm; cases hm
        | false =>
          obtain ⟨em, co, fo, k5, k6⟩ := k4 hs
          apply hk
          cases b with
          | true =>
            obtain ⟨ca, k6⟩ := k6 rfl
            rw [k6] at hm
            exact hm
          | false =>
            rw [k5] at hm
            exact List.mem_of_mem_take (i := 3) hm
      · have hb : b = false := by
          cases b with
          | false => rfl
          | true => exact absurd hc (h c (by simp))
        subst hb
        rw [get?_update, i4 fun c hc => h c (List.mem_append_left _ hc), Option.or_none, get?_eq_none_iff, keys_reverse_mem]
        intro hm
        cases hs : s.driver.source.isForcing with
        | true => rw [k3 hs] at hm; cases hm
        | false =>
          obtain ⟨em, co, fo, k5, -⟩ := k4 hs
          rw [k5] at hm
          revert hm
          simp [Dict.keys]

/-- C89, for runs asked for as a dictionary, if the carbon cycle table is asked for now or never was: after any history of
the instance, all entries of its results are those the run leaves in an empty results dictionary. (For a run that asks for
the carbon cycle table or after a history that never did; the rest is `C89_carbon_false`.) -/
theorem C89_last_partial {fmt : F → String} {cwd : String} {cops : CarbonOps F κ} {oops : OutputOps F κ}
    {tops : ThermalOps F τ} {d0 : Driver F κ} {cs : List (Call F)} {s s1 : Session F κ} {c : Call F} {b : Bool}
    (hnd : (tops.outputs.map Prod.fst ++ forcOutputList).Nodup) (h : Used fmt cwd cops oops tops d0 cs s)
    (hc : c.out = .dict b) (hcar : b = true ∨ ∀ c' ∈ cs, c'.out ≠ .dict true)
    (e : callRun fmt cwd cops oops tops s c = .ok s1) :
    ∃ s2, callRun fmt cwd cops oops tops s.emptied c = .ok s2 ∧ SameEntries s2.results s1.results := by
  obtain ⟨i1, i2, i3, i4⟩ := used_inv hnd h
  obtain ⟨d, t, r, hr, hf, ht⟩ := callRun_dict hc e
  obtain ⟨-, k1, k2, k3, k4⟩ := runResults_tables hf
  rw [run_kind hnd hr] at k3 k4
  obtain ⟨q, hr', hsame⟩ := run_results_congr [] hr
  have hf' := runResults_congr hsame hf
  refine ⟨⟨{ s1.driver with results := q }, Dict.update [] r.tables⟩, ?_, ?_, ?_⟩
  · unfold callRun Session.emptied
    simp only [hr', hc, hf', bind_ok]
    rfl
  · intro k
    show s1.tables.get? k = Dict.get? (Dict.update [] r.tables) k
    rw [ht, get?_update, get?_update]
    have hor : ∀ x : Option (Reader.Df F), Dict.get? s.tables k = none →
        x.or (Dict.get? s.tables k) = x.or (Dict.get? [] k) := by
      intro x hx; rw [hx]; rfl
    cases hs : s.driver.source.isForcing with
    | true => exact hor _ (by rw [i2 hs]; rfl)
    | false =>
      obtain ⟨em, co, fo, k5, k6⟩ := k4 hs
      by_cases hin : k ∈ Dict.keys r.tables
      · obtain ⟨v, hv⟩ := (get?_isSome_iff _ _).2 ((keys_reverse_mem r.tables k).2 hin)
        rw [hv, Option.some_or, Option.some_or]
      · by_cases h4 : k ∈ ["emissions", "concentrations", "forcing", "carbon cycle"]
        · rcases hcar with rfl | hcar
          · obtain ⟨ca, k6⟩ := k6 rfl
            rw [k6] at hin
            exact absurd h4 hin
          · have : k = "carbon cycle" := by
              rw [k5] at hin
              simp only [Dict.keys, List.map_append, List.map_cons, List.map_nil, List.mem_append, List.mem_cons,
                List.not_mem_nil, or_false] at hin h4
              rcases h4 with h4 | h4 | h4 | h4
              · exact absurd (Or.inl (Or.inl h4)) hin
              · exact absurd (Or.inl (Or.inr (Or.inl h4))) hin
              · exact absurd (Or.inl (Or.inr (Or.inr h4))) hin
              · exact h4
            subst this
            exact hor _ (i4 hcar)
        · exact hor _ (i3 k h4)
  · intro o
    show s1.driver.results.get? o = q.get? o
    rw [k1]
    by_cases ho : o ∈ tops.outputs.map Prod.fst ++ forcOutputList
    · exact (hsame o ho).symm
    · rw [results_only hnd hr ho (i1 o ho), results_only hnd hr' ho rfl]

/-- C89: whatever the history and however the results of the run are asked for, the yearly series are those the run leaves
in an empty results dictionary. -/
theorem C89_series {fmt : F → String} {cwd : String} {cops : CarbonOps F κ} {oops : OutputOps F κ}
    {tops : ThermalOps F τ} {d0 : Driver F κ} {cs : List (Call F)} {s s1 : Session F κ} {c : Call F}
    (hnd : (tops.outputs.map Prod.fst ++ forcOutputList).Nodup) (h : Used fmt cwd cops oops tops d0 cs s)
    (e : callRun fmt cwd cops oops tops s c = .ok s1) :
    ∃ d t, run cops tops s.emptied.driver c.pams = .ok (d, t) ∧
      ∀ o, s1.results.series.get? o = d.results.get? o := by
  obtain ⟨i1, -⟩ := used_inv hnd h
  have key : ∃ d t, run cops tops s.driver c.pams = .ok (d, t) ∧ s1.driver.results = d.results := by
    cases hc : c.out with
    | dict b =>
      obtain ⟨d, t, r, hr, hf, -⟩ := callRun_dict hc e
      exact ⟨d, t, hr, (runResults_tables hf).2.1⟩
    | files o =>
      obtain ⟨d, t, hr, hf, -⟩ := callRun_files hc e
      exact ⟨d, t, hr, (runFiles_keeps hf).1⟩
  obtain ⟨d, t, hr, hd⟩ := key
  obtain ⟨q, hr', hsame⟩ := run_results_congr [] hr
  refine ⟨_, t, hr', fun o => ?_⟩
  show s1.driver.results.get? o = q.get? o
  rw [hd]
  by_cases ho : o ∈ tops.outputs.map Prod.fst ++ forcOutputList
  · exact (hsame o ho).symm
  · rw [results_only hnd hr ho (i1 o ho), results_only hnd hr' ho rfl]

/-- Why C89 fails: a table the run does not make keeps its old value, and a run that writes files makes none. -/
theorem C89_kept {fmt : F → String} {cwd : String} {cops : CarbonOps F κ} {oops : OutputOps F κ}
    {tops : ThermalOps F τ} {s s1 : Session F κ} {c : Call F} (e : callRun fmt cwd cops oops tops s c = .ok s1) :
    ((∃ o, c.out = .files o) → s1.results.tables = s.results.tables) ∧
    (c.out = .dict false → s1.results.tables.get? "carbon cycle" = s.results.tables.get? "carbon cycle") := by
  refine ⟨?_, fun hc => ?_⟩
  · rintro ⟨o, hc⟩
    obtain ⟨-, -, -, -, ht⟩ := callRun_files hc e
    exact ht
  · obtain ⟨d, t, r, hr, hf, ht⟩ := callRun_dict hc e
    obtain ⟨-, -, -, k3, k4⟩ := runResults_tables hf
    show s1.tables.get? _ = s.tables.get? _
    rw [ht, get?_update]
    have : Dict.get? r.tables.reverse "carbon cycle" = none := by
      rw [get?_eq_none_iff, keys_reverse_mem]
      intro hm
      cases hs : d.source.isForcing with
      | true => rw [k3 hs] at hm; cases hm
      | false =>
        obtain ⟨em, co, fo, k5, -⟩ := k4 hs
        rw [k5] at hm
        revert hm
        simp [Dict.keys]
    rw [this, Option.none_or]

end

/-! ## The claim is false in general -/

/-- A call with the given fertilisation factor. -/
def shortCall (beta : ℚ) (out : Ask) : Call ℚ := ⟨⟨none, none, some [("beta_f", .flt beta)]⟩, out⟩

/-- A thermal model with the output names of the diffusion model, so that the output files can be written; every output is
the northern forcing. -/
def echoOps : ThermalOps ℚ Unit where
  create _ := .ok ()
  setFeedback t _ := t
  budget t fn _ _ _ := .ok (udmOutputs.map (fun p => (p.2, fn)), t)
  outputs := udmOutputs

/-- The results of two calls on one instance, and those of the second call on the instance with its results emptied. -/
def twoCalls {τ : Type} (tops : ThermalOps ℚ τ) (c c' : Call ℚ) :
    Except PyErr (Session ℚ (BoxM ℚ) × Session ℚ (BoxM ℚ) × Session ℚ (BoxM ℚ)) := do
  let h ← construct boxOps (shortInputs false) shortPam none
  let s ← callRun (fun _ => "x") "/d" boxOps boxOut tops ⟨{ shortDriver h with results := [] }, []⟩ c
  let s1 ← callRun (fun _ => "x") "/d" boxOps boxOut tops s c'
  let s2 ← callRun (fun _ => "x") "/d" boxOps boxOut tops s.emptied ⟨c'.pams, .dict true⟩
  return (s, s1, s2)

/-- A column of a table. -/
def tableCol (r : Reader.Results ℚ) (table name : String) : Option (List ℚ) :=
  (r.tables.get? table).bind (fun t => Dict.get? t.cols name)

/-- The second call leaves table `table` with the column `name` of the first call, though its own is another. -/
def stale {τ : Type} (tops : ThermalOps ℚ τ) (c c' : Call ℚ) (table name : String) : Bool :=
  match twoCalls tops c c' with
  | .ok (s, s1, s2) => (tableCol s.results table name).isSome &&
      tableCol s1.results table name == tableCol s.results table name &&
      tableCol s2.results table name != tableCol s1.results table name &&
      s1.results.series.get? "dT_glob" == s2.results.series.get? "dT_glob" &&
      s1.results.series.get? "dT_glob" != s.results.series.get? "dT_glob"
  | _ => false

/-- C89 fails for the column `name` of `table` with the calls `c` and `c'`: after both, the table has the column of the
first run, while the temperatures are those of the second; the second run's own column, which a dictionary with everything
gives, is another. -/
def Stale {τ : Type} (tops : ThermalOps ℚ τ) (c c' : Call ℚ) (table name : String) : Prop :=
  ∃ (h0 : Handler ℚ (BoxM ℚ)) (s s1 s2 : Session ℚ (BoxM ℚ)) (old new : List ℚ),
    construct boxOps (shortInputs false) shortPam none = .ok h0 ∧
    Used (fun _ => "x") "/d" boxOps boxOut tops (shortDriver h0) [c] s ∧
    callRun (fun _ => "x") "/d" boxOps boxOut tops s c' = .ok s1 ∧
    callRun (fun _ => "x") "/d" boxOps boxOut tops s.emptied ⟨c'.pams, .dict true⟩ = .ok s2 ∧
    tableCol s.results table name = some old ∧ tableCol s1.results table name = some old ∧
    tableCol s2.results table name = some new ∧ old ≠ new ∧
    s1.results.series.get? "dT_glob" = s2.results.series.get? "dT_glob" ∧
    s1.results.series.get? "dT_glob" ≠ s.results.series.get? "dT_glob"

theorem stale_of {τ : Type} {tops : ThermalOps ℚ τ} {c c' : Call ℚ} {table name : String}
    (h : (stale tops c c' table name &&
      match twoCalls tops c c' with
      | .ok (_, _, s2) => (tableCol s2.results table name).isSome
      | _ => false) = true) : Stale tops c c' table name := by
  rw [Bool.and_eq_true] at h
  obtain ⟨h, h'⟩ := h
  unfold stale at h
  cases e : twoCalls tops c c' with
  | error _ => rw [e] at h; cases h
  | ok r =>
    obtain ⟨s, s1, s2⟩ := r
    rw [e] at h h'
    simp only [Bool.and_eq_true, beq_iff_eq, bne_iff_ne, Option.isSome_iff_exists] at h h'
    obtain ⟨⟨⟨⟨⟨old, h1⟩, h2⟩, h3⟩, h4⟩, h5⟩ := h
    obtain ⟨new, h6⟩ := h'
    unfold twoCalls at e
    simp only [bind_eq_ok] at e
    obtain ⟨h0, hc, s', e1, s1', e2, s2', e3, e⟩ := e
    rw [pure_ok, Except.ok.injEq, Prod.mk.injEq, Prod.mk.injEq] at e
    obtain ⟨rfl, rfl, rfl⟩ := e
    refine ⟨h0, s', s1', s2', old, new, hc, .next (cs := []) .fresh e1, e2, e3, h1, h2.trans h1, h6, ?_, h4, h5⟩
    rintro rfl
    exact h3 (h6.trans (h2.trans h1).symm)

/-- C89 is false: when the last run does not ask for the carbon cycle table but an earlier one did, the results hold the
carbon cycle of the earlier run beside the temperatures of the last. -/
theorem C89_carbon_false : Stale twoLayerOps (shortCall 1 (.dict true)) (shortCall 0 (.dict false)) "carbon cycle"
    "Ocean carbon flux" :=
  stale_of (by decide +kernel)

/-- C89 is false: when the last run writes files, the results hold the concentrations of the earlier run beside the
temperatures of the last. -/
theorem C89_files_false : Stale echoOps (shortCall 1 (.dict false)) (shortCall 0 (.files ⟨none, none, false⟩))
    "concentrations" "CO2" :=
  stale_of (by decide +kernel)

/-! ## The hypotheses are met -/

theorem used_of {τ : Type} {tops : ThermalOps ℚ τ} {c c' : Call ℚ}
    (h : (match twoCalls tops c c' with
      | .ok _ => true
      | _ => false) = true) :
    ∃ (h0 : Handler ℚ (BoxM ℚ)) (s s1 : Session ℚ (BoxM ℚ)),
      Used (fun _ => "x") "/d" boxOps boxOut tops (shortDriver h0) [c] s ∧
      callRun (fun _ => "x") "/d" boxOps boxOut tops s c' = .ok s1 := by
  cases e : twoCalls tops c c' with
  | error _ => rw [e] at h; cases h
  | ok r =>
    unfold twoCalls at e
    simp only [bind_eq_ok] at e
    obtain ⟨h0, -, s', e1, s1', e2, -⟩ := e
    exact ⟨h0, s', s1', .next (cs := []) .fresh e1, e2⟩

/-- `C89_last_partial` and `C89_series` after a run that wrote files, for a run with other parameters that asks for
everything. -/
example : ∃ (h0 : Handler ℚ (BoxM ℚ)) (s s1 s2 : Session ℚ (BoxM ℚ)),
    Used (fun _ => "x") "/d" boxOps boxOut echoOps (shortDriver h0) [shortCall 1 (.files ⟨none, none, false⟩)] s ∧
    callRun (fun _ => "x") "/d" boxOps boxOut echoOps s (shortCall 0 (.dict true)) = .ok s1 ∧
    SameEntries s2.results s1.results := by
  obtain ⟨h0, s, s1, hu, e⟩ := used_of (tops := echoOps) (c := shortCall 1 (.files ⟨none, none, false⟩))
    (c' := shortCall 0 (.dict true)) (by decide +kernel)
  obtain ⟨s2, -, h⟩ := C89_last_partial (by decide +kernel) hu rfl (Or.inl rfl) e
  obtain ⟨-, -, -, -⟩ := C89_series (by decide +kernel) hu e
  exact ⟨h0, s, s1, s2, hu, e, h⟩

/-- `C89_last_partial` for runs that never ask for the carbon cycle table. -/
example : ∃ (h0 : Handler ℚ (BoxM ℚ)) (s s1 s2 : Session ℚ (BoxM ℚ)),
    Used (fun _ => "x") "/d" boxOps boxOut twoLayerOps (shortDriver h0) [shortCall 1 (.dict false)] s ∧
    callRun (fun _ => "x") "/d" boxOps boxOut twoLayerOps s (shortCall 0 (.dict false)) = .ok s1 ∧
    SameEntries s2.results s1.results := by
  obtain ⟨h0, s, s1, hu, e⟩ := used_of (tops := twoLayerOps) (c := shortCall 1 (.dict false))
    (c' := shortCall 0 (.dict false)) (by decide +kernel)
  obtain ⟨s2, -, h⟩ := C89_last_partial (by decide +kernel) hu rfl (Or.inr (by simp [shortCall])) e
  exact ⟨h0, s, s1, s2, hu, e, h⟩

end Verif.Props
