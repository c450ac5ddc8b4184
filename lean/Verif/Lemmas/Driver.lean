import Verif.Model.Driver
import Verif.Lemmas.HandlerState
import Verif.Lemmas.Precalc

/-! # The run loop as a trace of states -/

namespace Verif.Model.Driver
open Verif.Py Verif.Model Verif.Model.Handler

/-- A loop over consecutive years, as a sequence of states indexed by year. -/
theorem fold_trace {σ : Type} {step : σ → ℤ → Except PyErr σ} (b : ℤ) :
    ∀ (n : ℕ) (a : ℤ) (s s' : σ), a ≤ b → (b - a).toNat = n →
      (pyRange a b).foldlM step s = .ok s' →
      ∃ tr : ℤ → σ, tr a = s ∧ tr b = s' ∧
        ∀ y, a ≤ y → y < b → step (tr y) y = .ok (tr (y + 1))
  | 0, a, s, s', hab, hn, h => by
    have : a = b := by omega
    subst this
    rw [pyRange_empty (le_refl a), foldlM_nil_ok] at h
    exact ⟨fun _ => s, rfl, h.symm, fun y h1 h2 => by omega⟩
  | n + 1, a, s, s', hab, hn, h => by
    rw [pyRange_cons (by omega)] at h
    obtain ⟨m, h1, h2⟩ := foldlM_cons_ok.1 h
    obtain ⟨tr, t1, t2, t3⟩ := fold_trace b n (a + 1) m s' (by omega) (by omega) h2
    refine ⟨fun y => if y = a then s else tr y, by simp, ?_, ?_⟩
    · simp only [t2]
      rw [if_neg (by omega)]
    · intro y hy1 hy2
      simp only
      rw [if_neg (show ¬ (y + 1 = a) by omega)]
      by_cases hya : y = a
      · subst hya
        rw [if_pos rfl, t1]
        exact h1
      · rw [if_neg hya]
        exact t3 y (by omega) hy2

theorem rowOf_eq_ok {α : Type} {l : List α} {i : ℤ} {x : α} :
    rowOf l i = .ok x ↔ 0 ≤ i ∧ l[i.toNat]? = some x := by
  unfold rowOf
  by_cases h : i < 0
  · rw [if_pos h]; simp; omega
  · rw [if_neg h]
    cases l[i.toNat]? <;> simp; omega

section
variable {F κ τ : Type} [Add F] [Sub F] [Mul F] [Div F] [Neg F] [OfScientific F] [LT F] [DecidableLT F]
  [MathFn F]

/-! ## Result arrays -/

/-- An entry of a result array. -/
def entry (r : Dict (List F)) (o : String) (j : ℕ) : Option F := (r.get? o).bind (fun a => a[j]?)

/-- The length of a result array. -/
def len (r : Dict (List F)) (o : String) : Option ℕ := (r.get? o).map List.length

omit [Add F] [Sub F] [Mul F] [Div F] [Neg F] [OfScientific F] [LT F] [DecidableLT F] [MathFn F] in
theorem setResult_spec {r r' : Dict (List F)} {o : String} {i : ℕ} {v : F}
    (h : setResult r o i v = .ok r') :
    (∀ o', len r' o' = len r o') ∧
    (∀ o' j, entry r' o' j = if o' = o ∧ j = i then some v else entry r o' j) := by
  unfold setResult at h
  rw [bind_eq_ok] at h
  obtain ⟨a, ha, h⟩ := h
  have ha' : r.get? o = some a := by
    unfold Dict.getE at ha
    split at ha
    · rename_i w hw; rw [hw]; simpa using ha
    · cases ha
  split at h
  · rename_i hlt
    rw [pure_ok, Except.ok.injEq] at h
    subst h
    constructor
    · intro o'
      unfold len
      rw [Dict.get?_set]
      by_cases e : o = o'
      · subst e
        rw [if_pos rfl, ha']
        simp
      · rw [if_neg e]
    · intro o' j
      unfold entry
      rw [Dict.get?_set]
      by_cases e : o = o'
      · subst e
        rw [if_pos rfl, ha']
        by_cases hj : j = i
        · subst hj
          simp [hlt]
        · simp [hj, List.getElem?_set_ne (Ne.symm hj)]
      · rw [if_neg e, if_neg (fun x => e x.1.symm)]
  · cases h

omit [Add F] [Sub F] [Mul F] [Div F] [Neg F] [OfScientific F] [LT F] [DecidableLT F] [MathFn F] in
theorem addThermal_loop {values : Dict F} {i : ℕ} : ∀ (outs : List (String × String))
    (r r' : Dict (List F)), (outs.map Prod.fst).Nodup →
    outs.foldlM (addThermal values i) r = .ok r' →
    (∀ o, len r' o = len r o) ∧
    (∀ o j, (o ∉ outs.map Prod.fst ∨ j ≠ i) → entry r' o j = entry r o j) ∧
    (∀ p ∈ outs, ∃ v, values.get? p.2 = some v ∧ entry r' p.1 i = some v)
  | [], r, r', _, h => by
    rw [foldlM_nil_ok] at h
    subst h
    exact ⟨fun _ => rfl, fun _ _ _ => rfl, by simp⟩
  | p :: outs, r, r', hnd, h => by
    obtain ⟨m, h1, h2⟩ := foldlM_cons_ok.1 h
    rw [List.map_cons, List.nodup_cons] at hnd
    obtain ⟨i1, i2, i3⟩ := addThermal_loop outs m r' hnd.2 h2
    unfold addThermal at h1
    rw [bind_eq_ok] at h1
    obtain ⟨v, hv, h1⟩ := h1
    have hv' : values.get? p.2 = some v := by
      unfold Dict.getE at hv
      split at hv
      · rename_i w hw; rw [hw]; simpa using hv
      · cases hv
    obtain ⟨s1, s2⟩ := setResult_spec h1
    refine ⟨fun o => (i1 o).trans (s1 o), ?_, ?_⟩
    · intro o j hor
      rw [i2 o j, s2, if_neg]
      · rintro ⟨rfl, rfl⟩
        rcases hor with h | h
        · exact h (by simp)
        · exact h rfl
      · rcases hor with h | h
        · left
          intro hm
          exact h (by rw [List.map_cons]; exact List.mem_cons_of_mem _ hm)
        · exact Or.inr h
    · intro q hq
      rcases List.mem_cons.1 hq with rfl | hq
      · refine ⟨v, hv', ?_⟩
        rw [i2 _ _ (Or.inl hnd.1), s2, if_pos ⟨rfl, rfl⟩]
      · exact i3 q hq

/-- What one year writes into the result arrays. -/
theorem addYearData_spec {tops : ThermalOps F τ} {d : Driver F κ} {r r' : Dict (List F)}
    {values : Dict F} {forc : F} {index : ℤ}
    (hnd : (tops.outputs.map Prod.fst ++ forcOutputList).Nodup)
    (h : addYearData tops d r values forc index = .ok r') :
    (∀ o, len r' o = len r o) ∧
    (∀ o j, j ≠ index.toNat → entry r' o j = entry r o j) ∧
    (∀ p ∈ tops.outputs, ∃ v, values.get? p.2 = some v ∧ entry r' p.1 index.toNat = some v) ∧
    entry r' "Total_forcing" index.toNat = some forc ∧
    (∃ s, rowOf d.sun index = .ok s ∧ entry r' "Solar_forcing" index.toNat = some s) ∧
    (∃ vn, rowOf d.volcN index = .ok vn ∧ entry r' "Volcanic_forcing_NH" index.toNat = some (mean vn)) ∧
    (∃ vs, rowOf d.volcS index = .ok vs ∧
      entry r' "Volcanic_forcing_SH" index.toNat = some (mean vs)) := by
  obtain ⟨hn1, -, hdis⟩ := List.nodup_append.1 hnd
  unfold addYearData at h
  simp only [bind_eq_ok] at h
  obtain ⟨r1, e1, r2, e2, s, hs, r3, e3, vn, hvn, r4, e4, vs, hvs, e5⟩ := h
  obtain ⟨a1, a2, a3⟩ := addThermal_loop _ _ _ hn1 e1
  obtain ⟨b1, b2⟩ := setResult_spec e2
  obtain ⟨c1, c2⟩ := setResult_spec e3
  obtain ⟨d1, d2⟩ := setResult_spec e4
  obtain ⟨f1, f2⟩ := setResult_spec e5
  refine ⟨?_, ?_, ?_, ?_, ?_, ?_, ?_⟩
  · intro o; rw [f1, d1, c1, b1, a1]
  · intro o j hj
    rw [f2, if_neg (by simp [hj]), d2, if_neg (by simp [hj]), c2, if_neg (by simp [hj]), b2,
      if_neg (by simp [hj]), a2 o j (Or.inr hj)]
  · intro p hp
    obtain ⟨v, hv, he⟩ := a3 p hp
    refine ⟨v, hv, ?_⟩
    have hne : ∀ x ∈ forcOutputList, p.1 ≠ x := fun x hx =>
      hdis p.1 (List.mem_map_of_mem hp) x hx
    rw [f2, if_neg (fun e => hne _ (by simp [forcOutputList]) e.1),
      d2, if_neg (fun e => hne _ (by simp [forcOutputList]) e.1),
      c2, if_neg (fun e => hne _ (by simp [forcOutputList]) e.1),
      b2, if_neg (fun e => hne _ (by simp [forcOutputList]) e.1), he]
  · rw [f2, if_neg (by simp), d2, if_neg (by simp), c2, if_neg (by simp), b2, if_pos ⟨rfl, rfl⟩]
  · refine ⟨s, hs, ?_⟩
    rw [f2, if_neg (by simp), d2, if_neg (by simp), c2, if_pos ⟨rfl, rfl⟩]
  · refine ⟨vn, hvn, ?_⟩
    rw [f2, if_neg (by simp), d2, if_pos ⟨rfl, rfl⟩]
  · refine ⟨vs, hvs, ?_⟩
    rw [f2, if_pos ⟨rfl, rfl⟩]

omit [Add F] [Sub F] [Mul F] [Div F] [Neg F] [LT F] [DecidableLT F] [MathFn F] in
theorem initialise_spec {tops : ThermalOps F τ} {a b : ℤ} {r r' : Dict (List F)}
    (h : initialiseOutputArrays tops a b r = .ok r') :
    0 ≤ b - a + 1 ∧
    ∀ o ∈ tops.outputs.map Prod.fst ++ forcOutputList,
      r'.get? o = some (List.replicate (b - a + 1).toNat 0.0) := by
  unfold initialiseOutputArrays at h
  split at h
  · cases h
  · rename_i hn
    rw [Except.ok.injEq] at h
    refine ⟨by omega, ?_⟩
    subst h
    have key : ∀ (os : List String) (r : Dict (List F)) (o : String), 
        (o ∈ os ∨ r.get? o = some (List.replicate (b - a + 1).toNat 0.0)) →
        Dict.get? (os.foldl (fun r o => Dict.set r o
          (List.replicate (b - a + 1).toNat 0.0)) r) o =
          some (List.replicate (b - a + 1).toNat 0.0) := by
      intro os
      induction os with
      | nil =>
        intro r o ho
        rcases ho with h | h
        · simp at h
        · exact h
      | cons x os ih =>
        intro r o ho
        rw [List.foldl_cons]
        apply ih
        rw [Dict.get?_set]
        by_cases e : x = o
        · right; rw [if_pos e]
        · rw [if_neg e]
          rcases ho with h | h
          · rcases List.mem_cons.1 h with h | h
            · exact absurd h.symm e
            · exact Or.inl h
          · exact Or.inr h
    intro o ho
    exact key _ r o (Or.inl ho)

/-! ## The trace of a run -/

/-- The states of a run by year: before its first year, before every year, after the last one. -/
structure Trace (cops : CarbonOps F κ) (tops : ThermalOps F τ) (d : Driver F κ) (p : RunPams F)
    (d' : Driver F κ) (t' : τ) (tr : ℤ → RunState F κ τ) : Prop where
  start : startRun cops tops d p = .ok (tr d.nystart)
  step : ∀ y, d.nystart ≤ y → y ≤ d.nyend → yearStep cops tops d (tr y) y = .ok (tr (y + 1))
  last : d' = { d with source := (tr (d.nyend + 1)).source, results := (tr (d.nyend + 1)).results } ∧
    t' = (tr (d.nyend + 1)).thermal

theorem run_trace {cops : CarbonOps F κ} {tops : ThermalOps F τ} {d d' : Driver F κ}
    {p : RunPams F} {t' : τ} (h : run cops tops d p = .ok (d', t')) :
    ∃ tr, Trace cops tops d p d' t' tr := by
  unfold run at h
  simp only [bind_eq_ok] at h
  obtain ⟨s, hs, s', hs', h⟩ := h
  rw [pure_ok, Except.ok.injEq, Prod.mk.injEq] at h
  have hn : d.nystart ≤ d.nyend + 1 := by
    unfold startRun at hs
    rw [bind_eq_ok] at hs
    obtain ⟨r, hr, -⟩ := hs
    have := (initialise_spec hr).1
    omega
  obtain ⟨tr, t1, t2, t3⟩ := fold_trace (d.nyend + 1) _ _ _ _ hn rfl hs'
  refine ⟨tr, ?_, ?_, ?_⟩
  · rw [t1]; exact hs
  · intro y h1 h2
    exact t3 y h1 (by omega)
  · rw [t2]
    exact ⟨h.1.symm, h.2.symm⟩

theorem startRun_spec {cops : CarbonOps F κ} {tops : ThermalOps F τ} {d : Driver F κ}
    {p : RunPams F} {s : RunState F κ τ} (h : startRun cops tops d p = .ok s) :
    initialiseOutputArrays tops d.nystart d.nyend d.results = .ok s.results ∧
    tops.create p.udm = .ok s.thermal ∧ resetSource cops d.source p.emiconc p.carbon = .ok s.source ∧
    s.values = none := by
  unfold startRun at h
  simp only [bind_eq_ok] at h
  obtain ⟨r, hr, t, ht, src, hsrc, h⟩ := h
  rw [pure_ok, Except.ok.injEq] at h
  subst h
  exact ⟨hr, ht, hsrc, rfl⟩

theorem yearStep_spec {cops : CarbonOps F κ} {tops : ThermalOps F τ} {d : Driver F κ}
    {s s' : RunState F κ τ} {yr : ℤ} (h : yearStep cops tops d s yr = .ok s') :
    ∃ f vn vs values, yearForcing cops d s.source s.values yr = .ok (f, s'.source) ∧
      rowOf d.volcN (yr - d.nystart) = .ok vn ∧ rowOf d.volcS (yr - d.nystart) = .ok vs ∧
      tops.budget (tops.setFeedback s.thermal f.wAero) f.fn f.fs vn vs = .ok (values, s'.thermal) ∧
      s'.values = some values ∧
      addYearData tops d s.results values f.forc (yr - d.nystart) = .ok s'.results := by
  unfold yearStep at h
  simp only [bind_eq_ok] at h
  obtain ⟨f, hf, vn, hvn, vs, hvs, b, hb, r, hr, h⟩ := h
  rw [pure_ok, Except.ok.injEq] at h
  subst h
  exact ⟨f.1, vn, vs, b.1, hf, hvn, hvs, hb, rfl, hr⟩

/-- A property of the state kept by every year holds at the end if it holds after some year. -/
theorem Trace.keep {cops : CarbonOps F κ} {tops : ThermalOps F τ} {d d' : Driver F κ}
    {p : RunPams F} {t' : τ} {tr : ℤ → RunState F κ τ} (_ : Trace cops tops d p d' t' tr)
    (P : RunState F κ τ → Prop) (a b : ℤ) (hab : a ≤ b)
    (hstep : ∀ y, a ≤ y → y < b → P (tr y) → P (tr (y + 1))) (h : P (tr a)) : P (tr b) := by
  obtain ⟨n, hn⟩ : ∃ n : ℕ, b = a + n := ⟨(b - a).toNat, by omega⟩
  subst hn
  clear hab
  have : ∀ k : ℕ, k ≤ n → P (tr (a + k)) := by
    intro k
    induction k with
    | zero => intro _; simpa using h
    | succ k ih =>
      intro hk
      have := hstep (a + k) (by omega) (by omega) (ih (by omega))
      have e : a + ((k + 1 : ℕ) : ℤ) = a + k + 1 := by push_cast; ring
      rw [e]
      exact this
  exact this n le_rfl

/-! ## Progress: a run with complete inputs does not fail -/

theorem rowOf_exists {α : Type} {l : List α} {i : ℤ} (h0 : 0 ≤ i) (h : i < l.length) :
    ∃ x, rowOf l i = .ok x := by
  obtain ⟨x, hx⟩ : ∃ x, l[i.toNat]? = some x := ⟨l[i.toNat]'(by omega), by simp⟩
  exact ⟨x, rowOf_eq_ok.2 ⟨h0, hx⟩⟩

omit [Add F] [Sub F] [Mul F] [Div F] [Neg F] [OfScientific F] [LT F] [DecidableLT F] [MathFn F] in
theorem setResult_ok {r : Dict (List F)} {o : String} {i n : ℕ} (v : F) (h : len r o = some n)
    (hi : i < n) : ∃ r', setResult r o i v = .ok r' := by
  unfold len at h
  cases hg : r.get? o with
  | none => rw [hg] at h; cases h
  | some a =>
    rw [hg] at h
    simp only [Option.map_some, Option.some.injEq] at h
    subst h
    refine ⟨Dict.set r o (a.set i v), ?_⟩
    simp only [setResult, Dict.getE, hg, bind_ok]
    rw [if_pos hi]
    rfl

omit [Add F] [Sub F] [Mul F] [Div F] [Neg F] [OfScientific F] [LT F] [DecidableLT F] [MathFn F] in
theorem addThermal_loop_ok {values : Dict F} {i n : ℕ} (hi : i < n) :
    ∀ (outs : List (String × String)) (r : Dict (List F)),
    (∀ p ∈ outs, ∃ v, values.get? p.2 = some v) → (∀ p ∈ outs, len r p.1 = some n) →
    ∃ r', outs.foldlM (addThermal values i) r = .ok r' ∧ ∀ o, len r' o = len r o
  | [], r, _, _ => ⟨r, rfl, fun _ => rfl⟩
  | p :: outs, r, hv, hl => by
    obtain ⟨v, e⟩ := hv p List.mem_cons_self
    obtain ⟨m, hm⟩ := setResult_ok v (hl p List.mem_cons_self) hi
    have hs := (setResult_spec hm).1
    obtain ⟨r', h1, h2⟩ := addThermal_loop_ok hi outs m
      (fun q hq => hv q (List.mem_cons_of_mem _ hq))
      (fun q hq => by rw [hs]; exact hl q (List.mem_cons_of_mem _ hq))
    refine ⟨r', foldlM_cons_ok.2 ⟨m, ?_, h1⟩, fun o => (h2 o).trans (hs o)⟩
    simp only [addThermal, Dict.getE, e, bind_ok]
    exact hm

theorem addYearData_ok {tops : ThermalOps F τ} {d : Driver F κ} {r : Dict (List F)}
    {values : Dict F} (forc : F) {index : ℤ} {n : ℕ} (h0 : 0 ≤ index) (hn : index < n)
    (hv : ∀ p ∈ tops.outputs, ∃ v, values.get? p.2 = some v)
    (hl : ∀ o ∈ tops.outputs.map Prod.fst ++ forcOutputList, len r o = some n)
    (hs : n ≤ d.sun.length) (hvn : n ≤ d.volcN.length) (hvs : n ≤ d.volcS.length) :
    ∃ r', addYearData tops d r values forc index = .ok r' ∧ ∀ o, len r' o = len r o := by
  have hi : index.toNat < n := by omega
  obtain ⟨r1, e1, l1⟩ := addThermal_loop_ok hi tops.outputs r hv
    (fun p hp => hl _ (List.mem_append_left _ (List.mem_map_of_mem hp)))
  have hlf : ∀ o ∈ forcOutputList, len r1 o = some n := fun o ho => by
    rw [l1]; exact hl o (List.mem_append_right _ ho)
  obtain ⟨r2, e2⟩ := setResult_ok forc (hlf "Total_forcing" (by simp [forcOutputList])) hi
  have l2 := (setResult_spec e2).1
  obtain ⟨s, es⟩ := rowOf_exists (l := d.sun) h0 (by omega)
  obtain ⟨r3, e3⟩ := setResult_ok s ((l2 _).trans (hlf "Solar_forcing" (by simp [forcOutputList]))) hi
  have l3 := (setResult_spec e3).1
  obtain ⟨vn, en⟩ := rowOf_exists (l := d.volcN) h0 (by omega)
  obtain ⟨r4, e4⟩ := setResult_ok (mean vn)
    ((l3 _).trans ((l2 _).trans (hlf "Volcanic_forcing_NH" (by simp [forcOutputList])))) hi
  have l4 := (setResult_spec e4).1
  obtain ⟨vs, esv⟩ := rowOf_exists (l := d.volcS) h0 (by omega)
  obtain ⟨r5, e5⟩ := setResult_ok (mean vs)
    ((l4 _).trans ((l3 _).trans ((l2 _).trans
      (hlf "Volcanic_forcing_SH" (by simp [forcOutputList]))))) hi
  have l5 := (setResult_spec e5).1
  refine ⟨r5, ?_, fun o => (l5 o).trans ((l4 o).trans ((l3 o).trans ((l2 o).trans (l1 o))))⟩
  unfold addYearData
  rw [e1, bind_ok, e2, bind_ok, es, bind_ok, e3, bind_ok, en, bind_ok, e4, bind_ok, esv, bind_ok, e5]

theorem fold_ok {σ : Type} {step : σ → ℤ → Except PyErr σ} (Inv : ℤ → σ → Prop) (b : ℤ)
    (hstep : ∀ y s, y < b → Inv y s → ∃ s', step s y = .ok s' ∧ Inv (y + 1) s') :
    ∀ (n : ℕ) (a : ℤ) (s : σ), (b - a).toNat = n → Inv a s →
      ∃ s', (pyRange a b).foldlM step s = .ok s'
  | 0, a, s, hn, _ => ⟨s, by rw [pyRange_empty (by omega)]; rfl⟩
  | n + 1, a, s, hn, hs => by
    obtain ⟨m, h1, h2⟩ := hstep a s (by omega) hs
    obtain ⟨s', h3⟩ := fold_ok Inv b hstep n (a + 1) m (by omega) h2
    exact ⟨s', by rw [pyRange_cons (by omega)]; exact foldlM_cons_ok.2 ⟨m, h1, h3⟩⟩

/-- A thermal model that never fails once created, given volcanic rows of equal length. -/
structure Total (tops : ThermalOps F τ) : Prop where
  budget : ∀ t fn fs (vn vs : List F), vn.length = vs.length →
    ∃ values t', tops.budget t fn fs vn vs = .ok (values, t') ∧
    ∀ p ∈ tops.outputs, ∃ v, values.get? p.2 = some v

/-- A run driven by a forcing array succeeds when every series covers the run. -/
theorem run_array_ok {cops : CarbonOps F κ} {tops : ThermalOps F τ} (ht : Total tops)
    {d : Driver F κ} {p : RunPams F} {t0 : τ} (hc : tops.create p.udm = .ok t0) {xs : List F}
    (hs : d.source = .forcing (.array xs)) (hle : d.nystart ≤ d.nyend + 1)
    (hxs : d.nyend - d.nystart < xs.length) (hsun : d.nyend - d.nystart < d.sun.length)
    (hvn : d.nyend - d.nystart < d.volcN.length) (hvs : d.nyend - d.nystart < d.volcS.length)
    (heq : ∀ (i : ℕ) (vn vs : List F), d.volcN[i]? = some vn → d.volcS[i]? = some vs → vn.length = vs.length) :
    ∃ d' t', run cops tops d p = .ok (d', t') := by
  obtain ⟨r0, hr0⟩ : ∃ r0, initialiseOutputArrays tops d.nystart d.nyend d.results = .ok r0 := by
    unfold initialiseOutputArrays
    rw [if_neg (by omega)]
    exact ⟨_, rfl⟩
  have hstart : startRun cops tops d p =
      .ok { thermal := t0, values := none, source := .forcing (.array xs), results := r0 } := by
    unfold startRun
    rw [hr0, bind_ok, hc, bind_ok, hs]
    rfl
  set n := (d.nyend - d.nystart + 1).toNat with hndef
  have hloop := fold_ok (step := yearStep cops tops d)
    (fun y s => d.nystart ≤ y ∧ s.source = .forcing (.array xs) ∧
      ∀ o ∈ tops.outputs.map Prod.fst ++ forcOutputList, len s.results o = some n) (d.nyend + 1)
    (by
      rintro y s hy ⟨hy0, hsrc, hl⟩
      obtain ⟨x, hx⟩ := rowOf_exists (l := xs) (i := y - d.nystart) (by omega) (by omega)
      obtain ⟨u, hu⟩ := rowOf_exists (l := d.sun) (i := y - d.nystart) (by omega) (by omega)
      obtain ⟨vn, hn⟩ := rowOf_exists (l := d.volcN) (i := y - d.nystart) (by omega) (by omega)
      obtain ⟨vs, hv⟩ := rowOf_exists (l := d.volcS) (i := y - d.nystart) (by omega) (by omega)
      have hf : yearForcing cops d s.source s.values y =
          .ok (⟨x + u, x + u, x + u, 0.0⟩, .forcing (.array xs)) := by
        rw [hsrc]
        simp only [yearForcing, forcSet, prescribed, hx, hu, bind_ok, pure_ok]
      obtain ⟨values, t', hb, hk⟩ := ht.budget (tops.setFeedback s.thermal 0.0) (x + u) (x + u) vn vs
        (heq _ _ _ (rowOf_eq_ok.1 hn).2 (rowOf_eq_ok.1 hv).2)
      obtain ⟨r', hr, hl'⟩ := addYearData_ok (tops := tops) (d := d) (r := s.results) (values := values)
        (x + u) (index := y - d.nystart) (n := n) (by omega) (by omega) hk hl (by omega) (by omega)
        (by omega)
      refine ⟨{ thermal := t', values := some values, source := .forcing (.array xs), results := r' },
        ?_, by omega, rfl, fun o ho => by rw [hl']; exact hl o ho⟩
      unfold yearStep
      rw [hf, bind_ok]
      simp only [hn, hv, hb, hr, bind_ok, pure_ok])
    _ d.nystart { thermal := t0, values := none, source := .forcing (.array xs), results := r0 } rfl
    ⟨le_refl _, rfl, fun o ho => by
      show len r0 o = some n
      unfold len; rw [(initialise_spec hr0).2 o ho]; simp [hndef]⟩
  obtain ⟨s', hs'⟩ := hloop
  refine ⟨{ d with source := s'.source, results := s'.results }, s'.thermal, ?_⟩
  unfold run
  rw [hstart, bind_ok, hs', bind_ok, pure_ok]

end
end Verif.Model.Driver
