import Verif.Model.Shared
import Verif.Lemmas.InputErase
import Verif.Lemmas.Rerun
import Verif.Props.C01_C02

/-! # Building an instance from a configuration used before -/

namespace Verif.Model.InputHandler
open Verif.Py Verif.Py.Dict Verif.Model Verif.Model.Handler Verif.Model.Driver Verif.Spec

section
variable {F κ τ : Type}

theorem set_same {V : Type} {d : Dict V} {k : String} {v : V} (h : Dict.get? d k = some v) : Dict.set d k v = d := by
  induction d with
  | nil => cases h
  | cons p d ih =>
    obtain ⟨a, w⟩ := p
    rw [get?_cons] at h
    by_cases e : a = k
    · rw [if_pos e, Option.some.injEq] at h
      subst h
      simp [Dict.set, e]
    · rw [if_neg e] at h
      simp only [Dict.set, e, if_false, ih h]

theorem update_same {V : Type} {d e : Dict V} (h : ∀ kv ∈ e, Dict.get? d kv.1 = some kv.2) : Dict.update d e = d := by
  unfold Dict.update
  induction e with
  | nil => rfl
  | cons p e ih =>
    rw [List.foldl_cons, set_same (h p (List.mem_cons_self ..))]
    exact ih (fun kv hkv => h kv (List.mem_cons_of_mem _ hkv))

/-- The plain value of a configuration value. -/
def plainVal (v : CfgVal F) : PyVal F :=
  match v with
  | .val v => v
  | .data _ => .obj 0

theorem get?_plain (c : Dict (CfgVal F)) (k : String) : Dict.get? (plain c) k = (Dict.get? c k).map plainVal := by
  unfold plain
  induction c with
  | nil => rfl
  | cons p c ih =>
    obtain ⟨a, v⟩ := p
    rw [List.map_cons, get?_cons, get?_cons, ih]
    split
    · cases v <;> rfl
    · rfl

theorem keys_plain (c : Dict (CfgVal F)) : Dict.keys (plain c) = Dict.keys c := by
  unfold plain Dict.keys
  rw [List.map_map]
  rfl

theorem WF_plain {c : Dict (CfgVal F)} (h : WF c) : WF (plain c) := by
  unfold WF
  rw [keys_plain]
  exact h

theorem WF_updatedCfg {c : Dict (CfgVal F)} (h : WF c) : WF (updatedCfg c) := WF_update _ _ h

theorem get?_updatedCfg (c : Dict (CfgVal F)) (k : String) :
    Dict.get? (updatedCfg c) k = ((Dict.get? (Factory.driverCfg (plain c)) k).map CfgVal.val).or (Dict.get? c k) := by
  have hwf2 : WF ((Factory.driverCfg (plain c)).map (fun kv => (kv.1, CfgVal.val kv.2)) : Dict (CfgVal F)) := by
    have := WF_driverCfg (plain c)
    unfold WF Dict.keys at *
    rw [List.map_map]
    exact this
  unfold updatedCfg
  rw [get?_update, get?_reverse_of_WF hwf2, get?_vals]

theorem get?_driverCfg {d : Dict (PyVal F)} (hd : WF d) (k : String) : Dict.get? (Factory.driverCfg d) k =
    sanitisedValue (Dict.get? d k) (Dict.get? (Factory.driverRequired (F := F)) k)
      (k ∈ Dict.keys (Factory.driverUsed (F := F))) :=
  Props.C01_value _ _ _ WF_driverRequired hd k

theorem driverRequired_num {k : String} {v : PyVal F} (h : Dict.get? (Factory.driverRequired (F := F)) k = some v) :
    v.isNum = true := by
  unfold Factory.driverRequired at h
  simp only [get?_cons, get?_nil] at h
  split at h
  · cases h; rfl
  split at h
  · cases h; rfl
  split at h
  · cases h; rfl
  split at h
  · cases h; rfl
  cases h

/-- The values the instance takes from the configuration it has updated are those it took before. -/
theorem driverCfg_updated {c : Dict (CfgVal F)} (hc : WF c) (k : String) :
    Dict.get? (Factory.driverCfg (plain (updatedCfg c))) k = Dict.get? (Factory.driverCfg (plain c)) k := by
  rw [get?_driverCfg (WF_plain (WF_updatedCfg hc)), get?_plain, get?_updatedCfg, get?_driverCfg (WF_plain hc), get?_plain]
  cases hr : Dict.get? (Factory.driverRequired (F := F)) k with
  | none =>
    unfold sanitisedValue
    simp only
    by_cases hu : k ∈ Dict.keys (Factory.driverUsed (F := F))
    · simp only [hu, if_true]
      cases Dict.get? c k with
      | none => rfl
      | some v => cases v <;> rfl
    · simp only [hu, if_false]
  | some v0 =>
    have hn := driverRequired_num hr
    unfold sanitisedValue
    simp only
    cases Dict.get? c k with
    | none => simp [plainVal, hn]
    | some v =>
      cases v with
      | val v =>
        by_cases h : v.isNum = true
        · simp [plainVal, h]
        · simp [plainVal, h, hn]
      | data d =>
        have h0 : (PyVal.obj 0 : PyVal F).isNum = false := rfl
        simp [plainVal, h0, hn]

theorem updatedCfg_twice {c : Dict (CfgVal F)} (hc : WF c) : updatedCfg (updatedCfg c) = updatedCfg c := by
  conv_lhs => unfold updatedCfg
  change Dict.update (updatedCfg c) ((Factory.driverCfg (plain (updatedCfg c))).map (fun kv => (kv.1, CfgVal.val kv.2))) = _
  apply update_same
  intro kv hkv
  obtain ⟨q, hq, rfl⟩ := List.mem_map.1 hkv
  have := get?_of_mem (WF_driverCfg (plain (updatedCfg c))) (k := q.1) (v := q.2) hq
  rw [driverCfg_updated hc] at this
  simp only
  rw [get?_updatedCfg, this]
  rfl

theorem driverEmiconc_congr {s s' : Dict (PyVal F)} (h : ∀ k, Dict.get? s' k = Dict.get? s k) :
    Factory.driverEmiconc s' = Factory.driverEmiconc s := by
  unfold Factory.driverEmiconc Factory.carbonName Dict.getE
  simp only [h]

theorem pamI_congr {s s' : Dict (PyVal F)} (h : ∀ k, Dict.get? s' k = Dict.get? s k) (k : String) : pamI s' k = pamI s k := by
  unfold pamI Dict.getE
  rw [h]

variable [Add F] [Sub F] [Mul F] [Div F] [Neg F] [OfScientific F] [LT F] [DecidableLT F] [MathFn F]

/-- The rest of the constructor, from the dictionary it has updated and the values it took. -/
def assemble (cops : CarbonOps F κ) (tops : ThermalOps F τ) (fs : Files F) (u : Dict (CfgVal F)) (s : Dict (PyVal F)) :
    Except PyErr (Driver F κ) :=
  create fs u >>= fun ih => finish tops fs s ih (buildSource cops fs ih s (plain u))

theorem build_assemble (cops : CarbonOps F κ) (tops : ThermalOps F τ) (fs : Files F) (c : Dict (CfgVal F)) :
    build cops tops fs c = assemble cops tops fs (updatedCfg c) (Factory.driverCfg (plain c)) := by
  unfold assemble updatedCfg
  exact build_eq cops tops fs c

theorem assemble_congr (cops : CarbonOps F κ) (tops : ThermalOps F τ) (fs : Files F) (u : Dict (CfgVal F))
    {s s' : Dict (PyVal F)} (h : ∀ k, Dict.get? s' k = Dict.get? s k) :
    assemble cops tops fs u s' = assemble cops tops fs u s := by
  unfold assemble
  congr 1
  funext ih
  have hs : buildSource cops fs ih s' (plain u) = buildSource cops fs ih s (plain u) := by
    unfold buildSource
    rw [driverEmiconc_congr h]
  rw [hs]
  unfold finish
  rw [pamI_congr h, pamI_congr h]

theorem build_updated (cops : CarbonOps F κ) (tops : ThermalOps F τ) (fs : Files F) {c : Dict (CfgVal F)} (hc : WF c) :
    build cops tops fs (updatedCfg c) = build cops tops fs c := by
  rw [build_assemble, build_assemble, updatedCfg_twice hc]
  exact assemble_congr cops tops fs _ (driverCfg_updated hc)

end

/-! ## The gas table during a run -/

section
variable {F κ τ : Type} [Add F] [Sub F] [Mul F] [Div F] [Neg F] [OfScientific F] [LT F] [DecidableLT F] [MathFn F]

/-- The natural emissions a run writes into the gas table are the ones that are there. -/
structure NatFlat (h : Handler.Handler F κ) : Prop where
  ch4 : ∀ yr v g, h.natCh4.at' "CH4" yr = .ok v → Dict.get? h.gas "CH4" = some g → g.natEm = v
  n2o : ∀ yr v g, h.natN2o.at' "N2O" yr = .ok v → Dict.get? h.gas "N2O" = some g → g.natEm = v

/-- A run does not change the gas table. -/
def Steady (h : Handler.Handler F κ) : Prop := pamB h.pam "conc_run" = .ok true ∨ NatFlat h

theorem setNatEm_flat {h h' : Handler.Handler F κ} {t : String} {yr : ℤ} (hf : NatFlat h) (e : setNatEm h t yr = .ok h') :
    h' = h := by
  have same : ∀ (v : F) (g : Gas F), Dict.get? h.gas t = some g → g.natEm = v →
      { h with gas := Dict.set h.gas t { g with natEm := v } } = h := by
    intro v g hg hv
    subst hv
    have : Dict.set h.gas t { g with natEm := g.natEm } = h.gas := set_same hg
    rw [this]
  unfold setNatEm at e
  split at e
  · rename_i ht
    simp only [bind_eq_ok] at e
    obtain ⟨v, hv, g, hg, e⟩ := e
    rw [pure_ok, Except.ok.injEq] at e
    rw [gasAt_eq_ok] at hg
    rw [← e]
    exact same v g hg (hf.ch4 yr v g hv (ht ▸ hg))
  · split at e
    · rename_i ht
      simp only [bind_eq_ok] at e
      obtain ⟨v, hv, g, hg, e⟩ := e
      rw [pure_ok, Except.ok.injEq] at e
      rw [gasAt_eq_ok] at hg
      rw [← e]
      exact same v g hg (hf.n2o yr v g hv (ht ▸ hg))
    · rw [Except.ok.injEq] at e
      exact e.symm

theorem NatFlat.congr {h h' : Handler.Handler F κ} (hf : NatFlat h) (h1 : h'.natCh4 = h.natCh4) (h2 : h'.natN2o = h.natN2o)
    (h3 : h'.gas = h.gas) : NatFlat h' where
  ch4 := by rw [h1, h3]; exact hf.ch4
  n2o := by rw [h2, h3]; exact hf.n2o

theorem emi2conc_gas {ops : CarbonOps F κ} {h h' : Handler.Handler F κ} {yr : ℤ} {fb : Option (Dict F)} (hs : Steady h)
    (e : emi2conc ops h yr fb = .ok h') : h'.gas = h.gas := by
  obtain ⟨run, hrun, ⟨_, e⟩ | ⟨hno, es, _, ⟨_, e⟩ | ⟨_, e⟩⟩⟩ := emi2conc_cases e
  · rw [(fillOneRow_spec e).2.2.2.1]
  · rw [(beforeEmstart_spec e).2.2.2.1]
  · rcases hs with hs | hs
    · rw [hs, Except.ok.injEq] at hrun
      rw [← hrun] at hno
      cases hno
    · have key : NatFlat h' ∧ h'.gas = h.gas := by
        refine foldlM_inv (fun b : Handler.Handler F κ => NatFlat b ∧ b.gas = h.gas) ?_ _ (addRowOfZeros h yr) _
          ⟨hs.congr rfl rfl rfl, rfl⟩ e
        intro b t b' hb hx
        obtain ⟨g, _, ⟨_, rfl⟩ | ⟨_, ht, hx⟩ | ⟨_, ht, hx⟩⟩ := tracerStep_spec hx
        · exact hb
        · obtain ⟨sm, -, hg, -⟩ := co2Step_spec hx
          exact ⟨hb.1.congr sm.natCh4 sm.natN2o hg, hg.trans hb.2⟩
        · unfold otherStep at hx
          simp only [bind_eq_ok] at hx
          obtain ⟨cl, -, m, hm, q, -, g, -, em, -, hx⟩ := hx
          rw [pure_ok, Except.ok.injEq] at hx
          rw [setNatEm_flat hb.1 hm] at hx
          subst hx
          exact ⟨hb.1.congr rfl rfl rfl, hb.2⟩
      exact key.2

theorem reset_concRun {cops : CarbonOps F κ} {h g : Handler.Handler F κ} {p q : Option (Dict (PyVal F))}
    (e : resetWithNewPams cops h p q = .ok g) : Dict.get? g.pam "conc_run" = Dict.get? h.pam "conc_run" := by
  obtain ⟨pam, c, h1, h2, rfl⟩ := reset_spec e
  have hk : "conc_run" ∉ Dict.keys (Factory.checkPamset (F := F) none) := by
    unfold Factory.checkPamset cutAndCheckPamset
    rw [mem_keys_checkNumeric, Driver.mem_keys_cut]
    simp [Factory.handlerRequired, Dict.keys, Dict.has, Dict.get?, Dict.set]
  have hnone : (Factory.checkPamset p).get? "conc_run" = none := by
    rw [get?_eq_none_iff, mem_keys_checkPamset, not_or]
    exact ⟨hk, fun ⟨x, _⟩ => absurd x (by decide)⟩
  simp only
  rw [avoid_get? _ _ _ (fun h => hk (aerosol_keys h)), consistency_get? h1, hnone]
  split <;> rfl

/-- The gas table after a run. -/
theorem run_gas {cops : CarbonOps F κ} {tops : ThermalOps F τ} {d d1 : Driver F κ} {p : RunPams F} {t : τ}
    {h : Handler.Handler F κ} (hd : d.source = .handler h) (hs : Steady h) (hr : Driver.run cops tops d p = .ok (d1, t)) :
    ∃ h1, d1.source = .handler h1 ∧ h1.gas = h.gas := by
  obtain ⟨tr, ht⟩ := run_trace hr
  obtain ⟨H, hreset, hsrc, hyr⟩ := handler_trace ht hd
  have hle : d.nystart ≤ d.nyend + 1 := by
    have := (initialise_spec (startRun_spec ht.start).1).1; omega
  have h0 : (H d.nystart).gas = h.gas ∧ Steady (H d.nystart) := by
    obtain ⟨pam, c, e1, -, e⟩ := reset_spec hreset
    refine ⟨by rw [e], ?_⟩
    rcases hs with hs | hs
    · left
      unfold pamB Dict.getE at hs ⊢
      rw [reset_concRun hreset]
      exact hs
    · right
      exact hs.congr (by rw [e]) (by rw [e]) (by rw [e])
  refine ⟨H (d.nyend + 1), ?_, ?_⟩
  · rw [ht.last.1, ← hsrc _ hle (le_refl _)]
  · have key : ∀ n : ℕ, d.nystart + n ≤ d.nyend + 1 →
        (H (d.nystart + n)).gas = h.gas ∧ Steady (H (d.nystart + n)) := by
      intro n
      induction n with
      | zero => intro _; simpa using h0
      | succ n ih =>
        intro hn
        push_cast at hn
        obtain ⟨m, luc, sun, r, values, vn, vs, hy⟩ := hyr (d.nystart + n) (by omega) (by omega)
        obtain ⟨i1, i2⟩ := ih (by omega)
        have e : d.nystart + ((n + 1 : ℕ) : ℤ) = d.nystart + n + 1 := by push_cast; ring
        rw [e]
        have sm := (handler_frozen hyr (le_refl _) (show d.nystart ≤ d.nystart + n by omega) (by omega)).1
        have sm' := (handler_frozen hyr (le_refl _) (show d.nystart ≤ d.nystart + n + 1 by omega) (by omega)).1
        obtain ⟨i, _, _, _, hg, _⟩ := conc2forc_frame hy.forc
        have g1 : (H (d.nystart + n + 1)).gas = (H (d.nystart + n)).gas := by
          rw [← emi2conc_gas i2 hy.emi, ← hg]
        refine ⟨g1.trans i1, ?_⟩
        rcases i2 with i2 | i2
        · left
          rw [sm'.pam, ← sm.pam]
          exact i2
        · right
          exact i2.congr (by rw [sm'.natCh4, sm.natCh4]) (by rw [sm'.natN2o, sm.natN2o]) g1
    have := key (d.nyend + 1 - d.nystart).toNat (by omega)
    rw [show d.nystart + ((d.nyend + 1 - d.nystart).toNat : ℤ) = d.nyend + 1 by omega] at this
    exact this.1

end
end Verif.Model.InputHandler
