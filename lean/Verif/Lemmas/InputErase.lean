import Verif.Lemmas.InputCreate

/-! # Keys of the configuration nobody reads -/

namespace Verif.Model.InputHandler
open Verif.Py Verif.Py.Dict Verif.Model Verif.Model.Handler Verif.Model.Driver

section
variable {F κ τ : Type}

theorem erase_cons {V : Type} (p : String × V) (d : Dict V) (k : String) :
    Dict.erase (p :: d) k = if p.1 = k then Dict.erase d k else p :: Dict.erase d k := by
  unfold Dict.erase
  rw [List.filter_cons]
  by_cases h : p.1 = k
  · rw [if_pos h, if_neg (by simp [h])]
  · rw [if_neg h, if_pos (by simp [h])]

theorem erase_set {V : Type} (d : Dict V) {a k : String} (v : V) (h : a ≠ k) :
    Dict.erase (Dict.set d a v) k = Dict.set (Dict.erase d k) a v := by
  induction d with
  | nil =>
    show Dict.erase [(a, v)] k = [(a, v)]
    rw [erase_cons, if_neg h]
    rfl
  | cons p d ih =>
    obtain ⟨b, w⟩ := p
    by_cases e : b = a
    · subst e
      have e1 : Dict.set ((b, w) :: d) b v = (b, v) :: d := by simp [Dict.set]
      rw [e1, erase_cons, if_neg h, erase_cons, if_neg h]
      simp [Dict.set]
    · have e1 : Dict.set ((b, w) :: d) a v = (b, w) :: Dict.set d a v := by simp [Dict.set, e]
      rw [e1, erase_cons, erase_cons, ih]
      by_cases e2 : b = k
      · rw [if_pos e2, if_pos e2]
      · rw [if_neg e2, if_neg e2]
        simp [Dict.set, e]

theorem erase_update {V : Type} (d e : Dict V) {k : String} (h : k ∉ Dict.keys e) :
    Dict.update (Dict.erase d k) e = Dict.erase (Dict.update d e) k := by
  unfold Dict.update
  induction e generalizing d with
  | nil => rfl
  | cons p e ih =>
    simp only [Dict.keys, List.map_cons, List.mem_cons, not_or] at h
    rw [List.foldl_cons, List.foldl_cons, ← erase_set _ _ (fun x => h.1 x.symm)]
    exact ih _ h.2

/-- A loop that skips a key does not see whether it is there. -/
theorem foldl_erase {V W : Type} (f : W → String × V → W) (d : Dict V) (k : String) (hf : ∀ w v, f w (k, v) = w) (w : W) :
    (Dict.erase d k).foldl f w = d.foldl f w := by
  induction d generalizing w with
  | nil => rfl
  | cons p d ih =>
    obtain ⟨a, v⟩ := p
    rw [erase_cons]
    by_cases e : a = k
    · subst e
      rw [if_pos rfl, ih, List.foldl_cons, hf]
    · rw [if_neg e, List.foldl_cons, List.foldl_cons, ih]

theorem cutCfg_erase (req d used : Dict (CfgVal F)) {k : String} (hr : k ∉ Dict.keys req) (hu : k ∉ Dict.keys used) :
    cutAndCheckCfg req (Dict.erase d k) used = cutAndCheckCfg req d used := by
  unfold cutAndCheckCfg
  simp only
  rw [foldl_erase]
  intro w v
  simp only
  rw [if_neg]
  rw [has_iff, mem_keys_update]
  rintro (h | h)
  · exact hu h
  · exact hr h

theorem plain_erase (c : Dict (CfgVal F)) (k : String) : plain (Dict.erase c k) = Dict.erase (plain c) k := by
  unfold plain Dict.erase
  rw [List.filter_map]
  rfl

theorem driverCfg_erase (d : Dict (PyVal F)) {k : String} (h : k ∉ driverKeys) :
    Factory.driverCfg (Dict.erase d k) = Factory.driverCfg d := by
  unfold Factory.driverCfg cutAndCheckPamset cutNonRequired
  rw [foldl_erase]
  intro w v
  simp only
  rw [if_neg]
  rw [has_iff]
  intro hk
  rw [mem_keys_usedKeys] at hk
  have e1 : Dict.keys (Factory.driverUsed (F := F)) = ["carbon_cycle_model", "thermal_model"] := rfl
  have e2 : Dict.keys (Factory.driverRequired (F := F)) = ["nystart", "nyend", "emstart", "idtm"] := rfl
  rw [e1, e2] at hk
  apply h
  unfold driverKeys
  simp only [List.mem_cons, List.not_mem_nil, or_false] at hk ⊢
  clear * - hk
  tauto

variable [Add F] [Sub F] [Mul F] [Div F] [Neg F] [OfScientific F] [LT F] [DecidableLT F] [MathFn F]

omit [Add F] [Sub F] [Mul F] [Div F] [Neg F] [OfScientific F] [LT F] [DecidableLT F] [MathFn F] in
/-- The copied response functions are entries after the others. -/
theorem copyFunctions_append (cfg p : Dict (PyVal F)) (hp : WF p) (h1 : "rs_function" ∉ Dict.keys p)
    (h2 : "rb_function" ∉ Dict.keys p) : ∃ extra : Dict (PyVal F), copyFunctions cfg p = List.append p extra ∧
      WF (copyFunctions cfg p) ∧ ∀ k ∈ Dict.keys extra, k = "rs_function" ∨ k = "rb_function" := by
  unfold copyFunctions
  have set_app : ∀ (p e : Dict (PyVal F)) (k : String) (v : PyVal F), k ∉ Dict.keys p →
      Dict.set (List.append p e) k v = List.append p (Dict.set e k v) := by
    intro p e k v hk
    induction p with
    | nil => rfl
    | cons q p ih =>
      obtain ⟨a, w⟩ := q
      simp only [Dict.keys, List.map_cons, List.mem_cons, not_or] at hk
      have : ¬ a = k := fun e => hk.1 e.symm
      show Dict.set ((a, w) :: List.append p e) k v = (a, w) :: List.append p (Dict.set e k v)
      rw [← ih hk.2]
      simp [Dict.set, this]
  have key : ∀ extra : Dict (PyVal F), WF (List.append p extra) →
      (∀ k ∈ Dict.keys extra, k = "rs_function" ∨ k = "rb_function") →
      ∃ extra' : Dict (PyVal F), cfg.foldl (fun (p : Dict (PyVal F)) kv => if kv.1 = "rs_function" ∨ kv.1 = "rb_function" then Dict.set p kv.1 kv.2 else p)
        (List.append p extra) = List.append p extra' ∧ WF (List.append p extra') ∧
        ∀ k ∈ Dict.keys extra', k = "rs_function" ∨ k = "rb_function" := by
    induction cfg with
    | nil => exact fun extra hw hk => ⟨extra, rfl, hw, hk⟩
    | cons q cfg ih =>
      intro extra hw hk
      rw [List.foldl_cons]
      by_cases hq : q.1 = "rs_function" ∨ q.1 = "rb_function"
      · rw [if_pos hq]
        have hn : q.1 ∉ Dict.keys p := by
          rcases hq with e | e <;> rw [e] <;> assumption
        have e := set_app p extra q.1 q.2 hn
        rw [e]
        refine ih _ (by rw [← e]; exact WF_set _ _ _ hw) ?_
        intro k hk'
        rcases (mem_keys_set _ _ _ _).1 hk' with rfl | h
        · exact hq
        · exact hk k h
      · rw [if_neg hq]
        exact ih extra hw hk
  have hnil : List.append p ([] : Dict (PyVal F)) = p := List.append_nil p
  obtain ⟨e, h3, h4, h5⟩ := key [] (by rw [hnil]; exact hp) (by intro k hk; cases hk)
  rw [hnil] at h3
  exact ⟨e, h3, by rw [h3]; exact h4, h5⟩

omit [Add F] [Sub F] [Mul F] [LT F] [DecidableLT F] [MathFn F] in
theorem functions_unused {k : String} (h : k = "rs_function" ∨ k = "rb_function") :
    (usedKeys (Factory.handlerRequired (F := F)) Factory.handlerUsed).has k ≠ true := by
  rw [Ne, has_iff, mem_keys_usedKeys]
  have e1 : Dict.keys (Factory.handlerUsed (F := F)) = ["lifetime_mode", "just_one", "carbon_cycle_model", "idtm", "nystart",
    "nyend", "emstart"] := rfl
  have e2 : Dict.keys (Factory.handlerRequired (F := F)) = ["qbmb", "qo3", "qdirso2", "qindso2", "qbc", "qoc", "qh2o_ch4",
    "ref_yr", "qnmvoc", "qnh3", "qnox", "idtm", "nystart", "nyend", "emstart"] := rfl
  rw [e1, e2]
  rcases h with h | h <;> rw [h] <;> decide

/-- `check_pamset` drops the response functions. -/
theorem checkPamset_copy (cfg p : Dict (PyVal F)) (hp : WF p) (h1 : "rs_function" ∉ Dict.keys p)
    (h2 : "rb_function" ∉ Dict.keys p) (h3 : "lifetime_mode" ∉ Dict.keys p) (h4 : "carbon_cycle_model" ∈ Dict.keys p) :
    Factory.checkPamset (some (copyFunctions cfg p)) = Factory.checkPamset (some p) := by
  obtain ⟨extra, e, hw, hk⟩ := copyFunctions_append cfg p hp h1 h2
  rw [e] at hw ⊢
  have keys_app : Dict.keys (List.append p extra) = Dict.keys p ++ Dict.keys extra := List.map_append
  have not_lm : "lifetime_mode" ∉ Dict.keys (List.append p extra) := by
    rw [keys_app, List.mem_append]
    rintro (h | h)
    · exact h3 h
    · rcases hk _ h with h | h <;> revert h <;> decide
  have set_new : ∀ (d : Dict (PyVal F)), "lifetime_mode" ∉ Dict.keys d →
      Dict.set d "lifetime_mode" (.str "TAR") = List.append d [("lifetime_mode", .str "TAR")] := by
    intro d hd
    induction d with
    | nil => rfl
    | cons q d ih =>
      obtain ⟨a, w⟩ := q
      simp only [Dict.keys, List.map_cons, List.mem_cons, not_or] at hd
      have : ¬ a = "lifetime_mode" := fun e => hd.1 e.symm
      show Dict.set ((a, w) :: d) "lifetime_mode" _ = (a, w) :: List.append d [("lifetime_mode", .str "TAR")]
      rw [← ih hd.2]
      simp [Dict.set, this]
  have first : ∀ d : Dict (PyVal F), "lifetime_mode" ∉ Dict.keys d → "carbon_cycle_model" ∈ Dict.keys d →
      Factory.checkPamset (some d) = cutAndCheckPamset Factory.handlerRequired (Dict.set d "lifetime_mode" (.str "TAR"))
        Factory.handlerUsed := by
    intro d h5 h6
    unfold Factory.checkPamset
    simp only [Option.getD_some]
    have e1 : (if Dict.has d "lifetime_mode" = true then d else Dict.set d "lifetime_mode" (.str "TAR")) =
        Dict.set d "lifetime_mode" (.str "TAR") := if_neg (by rw [has_iff]; exact h5)
    rw [e1, if_pos]
    rw [has_iff, mem_keys_set]
    exact Or.inr h6
  rw [first _ not_lm (by rw [keys_app, List.mem_append]; exact Or.inl h4), first _ h3 h4]
  unfold cutAndCheckPamset
  have hu : ∀ k, k = "rs_function" ∨ k = "rb_function" →
      (usedKeys (Factory.handlerRequired (F := F)) Factory.handlerUsed).has k ≠ true := fun k h => functions_unused h
  generalize usedKeys (Factory.handlerRequired (F := F)) Factory.handlerUsed = used at hu ⊢
  generalize Factory.handlerRequired (F := F) = req
  rw [cutNonRequired_eq_filter _ _ (WF_set _ _ _ hw), cutNonRequired_eq_filter _ _ (WF_set _ _ _ hp), set_new _ not_lm,
    set_new _ h3]
  have e5 : List.filter (fun p => used.has p.1) extra = [] := by
    rw [List.filter_eq_nil_iff]
    intro q hq
    exact hu q.1 (hk q.1 (List.mem_map_of_mem hq))
  have e6 : List.filter (fun p => used.has p.1) (List.append (List.append p extra) [("lifetime_mode", .str "TAR")]) =
      List.filter (fun p => used.has p.1) (List.append p [("lifetime_mode", .str "TAR")]) := by
    show List.filter _ ((p ++ extra) ++ [_]) = List.filter _ (p ++ [_])
    rw [List.filter_append, List.filter_append, e5, List.append_nil, List.filter_append]
  rw [e6]

omit [Add F] [Sub F] [Mul F] [Div F] [Neg F] [OfScientific F] [LT F] [DecidableLT F] [MathFn F] in
theorem emiconc_keys {d p : Dict (PyVal F)} (h : Factory.driverEmiconc d = .ok p) :
    Dict.keys p = ["carbon_cycle_model", "emstart", "nystart", "nyend", "idtm"] := by
  unfold Factory.driverEmiconc at h
  simp only [bind_eq_ok] at h
  obtain ⟨a, _, b, _, c, _, e, _, h⟩ := h
  rw [pure_ok, Except.ok.injEq] at h
  subst h
  rfl

theorem construct_copy (cops : CarbonOps F κ) {s p : Dict (PyVal F)} (hp : Factory.driverEmiconc s = .ok p)
    (c : Dict (PyVal F)) (i : Inputs F) :
    construct cops i (some (copyFunctions c p)) none = construct cops i (some p) none := by
  have hk := emiconc_keys hp
  have hw : WF p := by unfold WF; rw [hk]; decide
  have e := checkPamset_copy c p hw (by rw [hk]; decide) (by rw [hk]; decide) (by rw [hk]; decide) (by rw [hk]; decide)
  unfold construct
  rw [e]

/-- The handler does not see the response functions of the configuration. -/
theorem buildSource_plain (cops : CarbonOps F κ) (fs : Files F) (ih : Handler F) (s cfg cfg' : Dict (PyVal F)) :
    buildSource cops fs ih s cfg = buildSource cops fs ih s cfg' := by
  unfold buildSource
  by_cases ho : optionalPam ih "forc" = true
  · rw [if_pos ho, if_pos ho]
  · rw [if_neg ho, if_neg ho]
    cases hp : Factory.driverEmiconc s with
    | error e => rw [bind_error, bind_error]
    | ok p =>
      rw [bind_ok, bind_ok]
      cases getInputs fs ih with
      | error e => rw [bind_error, bind_error]
      | ok i =>
        rw [bind_ok, bind_ok, construct_copy cops hp, construct_copy cops hp]

/-- The keys that are read. -/
def readKeys : List String :=
  driverKeys ++ ["sunvolc", "conc_run"] ++ readMethods.flatMap (fun k => [k ++ "_file", k ++ "_data"])

/-- The rest of the construction. -/
def finish (tops : ThermalOps F τ) (fs : Files F) (self_cfg : Dict (PyVal F)) (ih : Handler F)
    (src : Except PyErr (Source F κ)) : Except PyErr (Driver F κ) := do
  let nystart ← pamI self_cfg "nystart"
  let nyend ← pamI self_cfg "nyend"
  let source ← src
  let volcN ← asRows (← getData fs ih "rf_volc_n")
  let volcS ← asRows (← getData fs ih "rf_volc_s")
  let sun ← firstColumn (← asRows (← getData fs ih "rf_sun"))
  let luc ← firstColumn (← asRows (← getData fs ih "rf_luc"))
  let results ← initialiseOutputArrays tops nystart nyend []
  return { nystart, nyend, source, feedbackList := some ["dtemp"], volcN, volcS, sun, luc, results }

theorem build_eq (cops : CarbonOps F κ) (tops : ThermalOps F τ) (fs : Files F) (c : Dict (CfgVal F)) :
    build cops tops fs c = (create fs (Dict.update c ((Factory.driverCfg (plain c)).map (fun kv => (kv.1, CfgVal.val kv.2)))) >>=
      fun ih => finish tops fs (Factory.driverCfg (plain c)) ih (buildSource cops fs ih (Factory.driverCfg (plain c))
        (plain (Dict.update c ((Factory.driverCfg (plain c)).map (fun kv => (kv.1, CfgVal.val kv.2))))))) := rfl

/-- Any other key changes nothing. -/
theorem build_erase (cops : CarbonOps F κ) (tops : ThermalOps F τ) (fs : Files F) (c : Dict (CfgVal F)) {k : String}
    (hk : k ∉ readKeys) : build cops tops fs (Dict.erase c k) = build cops tops fs c := by
  unfold readKeys at hk
  rw [List.mem_append, List.mem_append, not_or, not_or] at hk
  obtain ⟨⟨hd, hs⟩, hm⟩ := hk
  have hcreate : ∀ d : Dict (CfgVal F), create fs (Dict.erase d k) = create fs d := by
    intro d
    unfold create
    rw [cutCfg_erase]
    · show k ∉ ["nystart", "nyend", "emstart", "carbon_cycle_model", "thermal_model"]
      unfold driverKeys at hd
      simp only [List.mem_cons, List.not_mem_nil, or_false, not_or] at hd ⊢
      clear * - hd
      tauto
    · show k ∉ ["sunvolc", "conc_run", "idtm"] ++ readMethods.flatMap (fun k => [k ++ "_file", k ++ "_data"])
      rw [List.mem_append]
      rintro (h | h)
      · unfold driverKeys at hd
        simp only [List.mem_cons, List.not_mem_nil, or_false, not_or] at hd hs h
        clear * - hd hs h
        tauto
      · exact hm h
  have hu : k ∉ Dict.keys ((Factory.driverCfg (plain c)).map (fun kv => (kv.1, CfgVal.val kv.2)) : Dict (CfgVal F)) := by
    intro h
    apply hd
    apply keys_driverCfg (plain c)
    unfold Dict.keys at h ⊢
    rw [List.map_map] at h
    exact h
  rw [build_eq, build_eq, plain_erase, driverCfg_erase (plain c) hd, erase_update c _ hu, hcreate]
  cases create fs (Dict.update c ((Factory.driverCfg (plain c)).map (fun kv => (kv.1, CfgVal.val kv.2)))) with
  | error e => rw [bind_error, bind_error]
  | ok ih =>
    rw [bind_ok, bind_ok, buildSource_plain cops fs ih _ _
      (plain (Dict.update c ((Factory.driverCfg (plain c)).map (fun kv => (kv.1, CfgVal.val kv.2)))))]

end
end Verif.Model.InputHandler
