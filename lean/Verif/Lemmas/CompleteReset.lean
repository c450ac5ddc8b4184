import Verif.Lemmas.CompleteRun

/-! # The handler after a reset is complete -/

namespace Verif.Props
open Verif.Py Verif.Py.Dict Verif.Model Verif.Model.Handler Verif.Model.Driver Verif.Spec

section
variable {F κ τ : Type} [Add F] [Sub F] [Mul F] [Div F] [Neg F] [OfScientific F] [LT F] [DecidableLT F]
  [MathFn F]

/-! ## Parameters -/

/-- The parameters a reset compares are there. -/
def HasFrozen (p : Dict (PyVal F)) : Prop := ∀ k ∈ pamsCantChange, ∃ v, p.get? k = some v

omit [Add F] [Sub F] [Mul F] [LT F] [DecidableLT F] [MathFn F] in
theorem required_keys {k : String} (h : k ∈ Dict.keys (Factory.handlerRequired (F := F))) (p : Option (Dict (PyVal F))) :
    k ∈ Dict.keys (Factory.checkPamset p) := by
  unfold Factory.checkPamset cutAndCheckPamset
  rw [mem_keys_checkNumeric]
  exact Or.inl h

omit [Add F] [Sub F] [Mul F] [LT F] [DecidableLT F] [MathFn F] in
theorem lifetime_key (p : Option (Dict (PyVal F))) : "lifetime_mode" ∈ Dict.keys (Factory.checkPamset p) := by
  rw [mem_keys_checkPamset]
  left
  unfold Factory.checkPamset cutAndCheckPamset
  rw [mem_keys_checkNumeric, mem_keys_cut, mem_keys_usedKeys]
  right
  constructor
  · left; simp [Factory.handlerUsed, Dict.keys]
  · simp [Dict.has, Dict.get?, Dict.set, Dict.keys]

omit [Add F] [Sub F] [Mul F] [Div F] [Neg F] [OfScientific F] [LT F] [DecidableLT F] in
theorem consistency_ok {old new : Dict (PyVal F)} (h : HasFrozen old) : ∃ r, checkPamsetConsistency old new = .ok r := by
  unfold checkPamsetConsistency
  obtain ⟨c, hc, -⟩ := foldlM_ok (f := keepOldStep old) (fun _ => True) pamsCantChange new (by
    intro b k hk _
    obtain ⟨o, ho⟩ := h k hk
    unfold keepOldStep Dict.getE
    split
    · exact ⟨_, rfl, trivial⟩
    · rw [ho]
      simp only [bind_ok]
      split
      · exact ⟨_, rfl, trivial⟩
      · exact ⟨_, rfl, trivial⟩) trivial
  rw [hc, bind_ok]
  exact ⟨_, rfl⟩

omit [Add F] [Sub F] [Mul F] [LT F] [DecidableLT F] in
theorem HasFrozen.reset {old new r : Dict (PyVal F)} (h : HasFrozen old) (gases : List String)
    (e : checkPamsetConsistency old new = .ok r) : HasFrozen (avoidRegionalDoubleCounting gases r) := by
  intro k hk
  obtain ⟨o, ho⟩ := h k hk
  rw [avoid_get? _ _ _ (by
    unfold pamsCantChange at hk
    simp only [List.mem_cons, List.not_mem_nil, or_false] at hk
    rcases hk with rfl | rfl | rfl | rfl | rfl <;> decide), consistency_get? e, if_pos hk, ho]
  split
  · exact ⟨_, rfl⟩
  · exact ⟨_, rfl⟩

omit [Add F] [Sub F] [Mul F] [Div F] [Neg F] [OfScientific F] [LT F] [DecidableLT F] in
theorem toF_of_isNum {v : PyVal F} (h : v.isNum = true) : ∃ x : F, v.toF = some x := by
  cases v <;> first | exact ⟨_, rfl⟩ | cases h

omit [Add F] [Sub F] [Mul F] [LT F] [DecidableLT F] in
/-- A numeric parameter of a run can be read as a number. -/
theorem num_ok {old r : Dict (PyVal F)} {p : Option (Dict (PyVal F))} (gases : List String)
    (e : checkPamsetConsistency old (Factory.checkPamset p) = .ok r) {k : String} (hk : k ∈ forcingPams) :
    ∃ v : F, pamF (avoidRegionalDoubleCounting gases r) k = .ok v := by
  have hreq : k ∈ Dict.keys (Factory.handlerRequired (F := F)) := by
    unfold forcingPams at hk
    simp only [List.mem_cons, List.not_mem_nil, or_false] at hk
    simp only [Factory.handlerRequired, Dict.keys, List.map_cons, List.map_nil, List.mem_cons]
    rcases hk with rfl | rfl | rfl | rfl | rfl | rfl | rfl | rfl | rfl | rfl <;> simp
  have hnot : k ∉ pamsCantChange := by
    unfold forcingPams at hk
    simp only [List.mem_cons, List.not_mem_nil, or_false] at hk
    rcases hk with rfl | rfl | rfl | rfl | rfl | rfl | rfl | rfl | rfl | rfl <;> decide
  have hnew : ∃ v, (Factory.checkPamset p).get? k = some v ∧ v.isNum = true := by
    obtain ⟨d, hd⟩ := (get?_isSome_iff _ _).2 hreq
    have hdn : d.isNum = true := by
      have := Dict.mem_of_get? hd
      unfold Factory.handlerRequired at this
      simp only [List.mem_cons, List.not_mem_nil, or_false, Prod.mk.injEq] at this
      rcases this with h | h | h | h | h | h | h | h | h | h | h | h | h | h | h <;> rw [h.2] <;> rfl
    unfold Factory.checkPamset cutAndCheckPamset
    rw [get?_checkNumericPamset (by simp [Factory.handlerRequired, WF, Dict.keys]), hd]
    simp only
    split
    · split
      · rename_i hv; exact ⟨_, rfl, hv⟩
      · exact ⟨_, rfl, hdn⟩
    · exact ⟨_, rfl, hdn⟩
  obtain ⟨v, hv, hn⟩ := hnew
  have hr : r.get? k = some v := by
    rw [consistency_get? e, if_neg hnot, hv]; rfl
  have hav : ∃ w, (avoidRegionalDoubleCounting gases r).get? k = some w ∧ w.isNum = true := by
    unfold avoidRegionalDoubleCounting
    generalize globalAerosols = l
    have key : ∀ (l : List (String × String)) (d : Dict (PyVal F)), (∃ w, d.get? k = some w ∧ w.isNum = true) →
        ∃ w, Dict.get? (l.foldl (fun p a => if gases.any (fun comp => (a.1 ++ "_").toList.isPrefixOf comp.toList) then
          Dict.set p a.2 (.flt 0.0) else p) d) k = some w ∧ w.isNum = true := by
      intro l
      induction l with
      | nil => exact fun d h => h
      | cons a l ih =>
        intro d hd
        rw [List.foldl_cons]
        apply ih
        split
        · rw [get?_set]
          split
          · exact ⟨_, rfl, rfl⟩
          · exact hd
        · exact hd
    exact key _ _ ⟨v, hr, hn⟩
  obtain ⟨w, hw, hwn⟩ := hav
  obtain ⟨x, hx⟩ := toF_of_isNum hwn
  unfold pamF Dict.getE
  rw [hw]
  simp only [bind_ok, hx]
  exact ⟨x, rfl⟩

/-! ## The tracers -/

theorem aerosolName_iff (t : String) : isAerosol t = true ↔ AerosolName t := by
  rw [isAerosol_iff]
  unfold IsAerosol AerosolName
  simp only [List.mem_cons, List.not_mem_nil, or_false]
  constructor
  · rintro (h | h | h | h)
    · exact Or.inl (Or.inl h)
    · exact Or.inl (Or.inr (Or.inl h))
    · exact Or.inl (Or.inr (Or.inr h))
    · exact Or.inr h
  · rintro ((h | h | h) | h)
    · exact Or.inl h
    · exact Or.inr (Or.inl h)
    · exact Or.inr (Or.inr (Or.inl h))
    · exact Or.inr (Or.inr (Or.inr h))

theorem driving {t : String} {sp : String × String} (h : refEmissionSpecies.get? t = some sp) :
    drivingEmission t = some sp.1 := by
  have := Dict.mem_of_get? h
  unfold refEmissionSpecies at this
  simp only [List.mem_cons, List.not_mem_nil, or_false, Prod.mk.injEq] at this
  rcases this with h | h | h | h | h | h | h | h <;> obtain ⟨rfl, rfl⟩ := h <;> rfl

omit [Add F] [Sub F] [Mul F] [Div F] [Neg F] [LT F] [DecidableLT F] [MathFn F] in
theorem canon_fields (t : String) (g : Gas F) : (canon t g).concUnit = g.concUnit ∧ (canon t g).alpha = g.alpha := by
  unfold canon
  split <;> exact ⟨rfl, rfl⟩

omit [Add F] [Sub F] [Mul F] [Div F] [Neg F] [LT F] [DecidableLT F] [MathFn F] in
theorem canon_some {gas gas' : Dict (Gas F)}
    (h : ∀ t, (Dict.get? gas' t).map (canon t) = (Dict.get? gas t).map (canon t)) {t : String} {g : Gas F}
    (e : Dict.get? gas t = some g) : ∃ g', Dict.get? gas' t = some g' ∧ g'.concUnit = g.concUnit ∧ g'.alpha = g.alpha := by
  have ht := h t
  rw [e] at ht
  cases hg : Dict.get? gas' t with
  | none => rw [hg] at ht; cases ht
  | some g' =>
    rw [hg, Option.map_some, Option.map_some, Option.some.injEq] at ht
    have h1 := canon_fields t g
    have h2 := canon_fields t g'
    rw [ht] at h2
    exact ⟨g', rfl, h2.1.symm.trans h1.1, h2.2.symm.trans h1.2⟩

theorem mem_forcKeysOf {spicy : List String} {t : String} :
    t ∈ forcKeysOf spicy ↔ t = "Total_forcing" ∨ t ∈ spicy ∧ t ≠ "CO2.1" := by
  have hf : ∀ t, t ∈ spicy.filter (fun t => t ≠ "CO2.1") ↔ t ∈ spicy ∧ t ≠ "CO2.1" := by
    intro t; rw [List.mem_filter, decide_eq_true_iff]
  unfold forcKeysOf
  by_cases hT : "Total_forcing" ∈ spicy.filter (fun t => t ≠ "CO2.1")
  · rw [if_pos hT, hf]
    refine ⟨Or.inr, ?_⟩
    rintro (rfl | h)
    · exact (hf _).1 hT
    · exact h
  · rw [if_neg hT, List.mem_append, hf, List.mem_singleton, or_comm]

omit [Add F] [Sub F] [Mul F] [Div F] [Neg F] [OfScientific F] [LT F] [DecidableLT F] [MathFn F] in
theorem pamI_congr {d d' : Dict (PyVal F)} {k : String} (h : Dict.get? d k = Dict.get? d' k) : pamI d k = pamI d' k := by
  unfold pamI Dict.getE
  rw [h]

omit [Add F] [Sub F] [Mul F] [Div F] [Neg F] [OfScientific F] [LT F] [DecidableLT F] [MathFn F] in
theorem pamB_congr {d d' : Dict (PyVal F)} {k : String} [OfScientific F] [MathFn F] (h : Dict.get? d k = Dict.get? d' k) :
    pamB d k = pamB d' k := by
  unfold pamB Dict.getE
  rw [h]

omit [Add F] [Sub F] [Mul F] [Div F] [Neg F] [OfScientific F] [LT F] [DecidableLT F] [MathFn F] in
theorem mem_set_ne {d : Dict (PyVal F)} {a k : String} {v w : PyVal F} (h : (k, v) ∈ d.set a w) (hne : a ≠ k) :
    (k, v) ∈ d := by
  induction d with
  | nil =>
    simp only [Dict.set, List.mem_cons, List.not_mem_nil, or_false, Prod.mk.injEq] at h
    exact absurd h.1.symm hne
  | cons p d ih =>
    obtain ⟨k', v'⟩ := p
    simp only [Dict.set] at h
    split at h
    · rename_i e
      rcases List.mem_cons.1 h with h | h
      · rw [Prod.mk.injEq] at h
        exact absurd (e.symm.trans h.1.symm) hne
      · exact List.mem_cons_of_mem _ h
    · rcases List.mem_cons.1 h with h | h
      · exact h ▸ List.mem_cons_self
      · exact List.mem_cons_of_mem _ (ih h)

omit [Add F] [Sub F] [Mul F] [Div F] [Neg F] [OfScientific F] [LT F] [DecidableLT F] [MathFn F] in
theorem cut_mem {req d : Dict (PyVal F)} {k : String} {v : PyVal F} (h : (cutNonRequired req d).get? k = some v) :
    (k, v) ∈ d := by
  have key : ∀ acc : Dict (PyVal F), (d.foldl (fun new p => if req.has p.1 then new.set p.1 p.2 else new) acc).get? k = some v →
      acc.get? k = some v ∨ (k, v) ∈ d := by
    clear h
    induction d with
    | nil => intro acc h; exact Or.inl h
    | cons p d ih =>
      intro acc h
      rw [List.foldl_cons] at h
      rcases ih _ h with h | h
      · split at h
        · rw [Dict.get?_set] at h
          split at h
          · rename_i e
            rw [Option.some.injEq] at h
            right
            rw [← e, ← h]
            exact List.mem_cons_self
          · exact Or.inl h
        · exact Or.inl h
      · exact Or.inr (List.mem_cons_of_mem _ h)
  rcases key [] h with h | h
  · cases h
  · exact h

/-- The value of a key that is only copied comes from the caller. -/
theorem justOne_mem (p : Option (Dict (PyVal F))) {v : PyVal F}
    (h : Dict.get? (Factory.checkPamset p) "just_one" = some v) : ("just_one", v) ∈ p.getD [] := by
  have hset : ∀ (d : Dict (PyVal F)) (a : String) (w : PyVal F), a ≠ "just_one" →
      ("just_one", v) ∈ (if d.has a then d else d.set a w) → ("just_one", v) ∈ d := by
    intro d a w hne hm
    split at hm
    · exact hm
    · exact (mem_set_ne hm hne)
  unfold Factory.checkPamset cutAndCheckPamset at h
  rw [get?_checkNumericPamset (by simp [Dict.WF, Dict.keys, Factory.handlerRequired])] at h
  rw [show Dict.get? (Factory.handlerRequired (F := F)) "just_one" = none by
    rw [get?_eq_none_iff]; simp [Factory.handlerRequired, Dict.keys]] at h
  exact hset _ _ _ (by decide) (hset _ _ _ (by decide) (cut_mem h))

/-- What is in force for `just_one`. -/
def JustPam (gas : Dict (Gas F)) (pam : Dict (PyVal F)) : Prop :=
  ∀ v, Dict.get? pam "just_one" = some v → ∃ k, v = .str k ∧ (k = "Total_forcing" ∨ YearByYear gas k)

theorem JustPam.reset {gas : Dict (Gas F)} {cops : CarbonOps F κ} {h g : Handler F κ} {p q : Option (Dict (PyVal F))}
    (hj : JustPam gas h.pam) (er : resetWithNewPams cops h p q = .ok g) (hp : OneComponent gas p) : JustPam gas g.pam := by
  obtain ⟨pam, car, r1, r2, rfl⟩ := reset_spec er
  intro v hv
  simp only at hv
  rw [avoid_get? _ _ _ (by decide), consistency_get? r1, if_neg (by decide)] at hv
  cases hn : Dict.get? (Factory.checkPamset p) "just_one" with
  | none => rw [hn] at hv; exact hj v hv
  | some w =>
    rw [hn] at hv
    obtain rfl : w = v := by simpa using hv
    exact hp w (justOne_mem p hn)

theorem JustPam.constructed {cops : CarbonOps F κ} {i : Inputs F} {pamset carb : Option (Dict (PyVal F))}
    {h0 : Handler F κ} (e : construct cops i pamset carb = .ok h0) (hj : OneComponent i.gas pamset) :
    JustPam i.gas h0.pam := by
  obtain ⟨ns1, ne1, emis, clbr, prec, pre, k0, k, c1, c2, c3, c4, c5, c6, c7, c8, rfl⟩ := construct_spec e
  intro v hv
  simp only at hv
  rw [avoid_get? _ _ _ (by decide), Dict.get?_set, if_neg (by decide)] at hv
  exact hj v (justOne_mem pamset hv)

/-- The handler a run starts with is complete. -/
theorem able_of {cops : CarbonOps F κ} {i : Inputs F} {pamset carb : Option (Dict (PyVal F))}
    {ns es ne ref : ℤ} (law : YearLaw F) (hg : CompleteGases i.gas) (h : CompleteTables i ns es ne ref)
    (h1 : pamI (Factory.checkPamset pamset) "nystart" = .ok ns)
    (h2 : pamI (Factory.checkPamset pamset) "nyend" = .ok ne)
    (h3 : pamI (Factory.checkPamset pamset) "emstart" = .ok es)
    {h0 hh g : Handler F κ} (e : construct cops i pamset carb = .ok h0)
    (htot : ∀ y, ns ≤ y → y ≤ ne → ∃ v, totVanilla h0.prec y = .ok v)
    (hk : Kept False h0 hh) (hj : JustPam i.gas hh.pam) {p q : Option (Dict (PyVal F))} (er : resetWithNewPams cops hh p q = .ok g)
    (hpj : OneComponent i.gas p) (href : pamI (Factory.checkPamset p) "ref_yr" = .ok ref) :
    Able g ns es ne ref i.concRun := by
  have hkg := hk.reset law er (fun x => x.elim)
  have hjg := hj.reset er hpj
  obtain ⟨ns1, ne1, emis, clbr, prec, pre, k0, k, c1, c2, c3, c4, c5, c6, c7, c8, rfl⟩ := construct_spec e
  rw [h1, Except.ok.injEq] at c1
  rw [h2, Except.ok.injEq] at c2
  subst c1 c2
  obtain ⟨-, hidx, hcols, -⟩ : True ∧ emis.idx = i.emis.idx ∧ emis.cols = i.emis.cols ∧ True := by
    obtain ⟨em, h4, h5, h6⟩ := perturbedEmis_ok h.pertEm
    rw [h4, Except.ok.injEq] at c3
    subst c3
    exact ⟨trivial, h6, h5, trivial⟩
  obtain ⟨v1, -, v3⟩ := mem_spicy c5
  have hvan := vanilla_mem hg.once v1
  have hspicy : ∀ t, t ∈ prec.spicy ↔ t ∈ i.gas.keys ∧ t ∉ prec.gases ∧ t ≠ "STRAT_O3" := by
    intro t
    rw [v3, List.mem_filter, decide_eq_true_iff]
  have hgas : ∀ t, (Dict.get? g.gas t).map (canon t) = (Dict.get? i.gas t).map (canon t) := hkg.gas
  have hgas' : ∀ t, (Dict.get? i.gas t).map (canon t) = (Dict.get? g.gas t).map (canon t) := fun t => (hkg.gas t).symm
  obtain ⟨pam, car, r1, r2, rfl⟩ := reset_spec er
  have hconcKeys : concKeysOf hh.gas hh.prec.spicy = concKeysOf i.gas prec.spicy := by
    rw [hk.prec]; exact concKeysOf_congr hk.gas _
  have hprec : hh.prec = prec := hk.prec
  have hmainSpicy : ∀ t ∈ ["CO2", "CH4", "N2O"], t ∈ prec.spicy := by
    intro t ht
    obtain ⟨x, hx, -⟩ := hg.main t ht
    refine (hspicy t).2 ⟨(get?_isSome_iff _ _).1 ⟨x, hx⟩, fun hm => ((hvan t).1 hm).2 ht, ?_⟩
    rintro rfl
    simp at ht
  have hnoconc : ∀ t, t ∈ prec.spicy → t ∉ ["CO2", "CH4", "N2O"] → NoConc i.gas t := by
    intro t ht hm
    obtain ⟨s1, s2, -⟩ := (hspicy t).1 ht
    obtain ⟨x, hx⟩ := (get?_isSome_iff _ _).2 s1
    refine ⟨x, hx, ?_⟩
    by_contra hu
    exact s2 ((hvan t).2 ⟨⟨x, hx, hu⟩, hm⟩)
  have hforc : ∀ t, t ∈ forcKeysOf hh.prec.spicy → t = "Total_forcing" ∨ t ∈ prec.spicy := by
    intro t ht
    rw [hprec] at ht
    exact (mem_forcKeysOf.1 ht).imp id And.left
  have hforc' : ∀ t, t ∈ prec.spicy → t ≠ "CO2.1" → t ∈ forcKeysOf hh.prec.spicy := by
    intro t ht hne
    rw [hprec]
    exact mem_forcKeysOf.2 (Or.inr ⟨ht, hne⟩)
  have hget : ∀ k, k ∉ globalAerosols.map Prod.snd →
      (avoidRegionalDoubleCounting hh.gas.keys pam).get? k = pam.get? k := fun k hk => avoid_get? _ _ _ hk
  refine
    { order := h.order
      start := h.start
      years := hkg.years
      run := ?_
      before := ?_
      mode := ?_
      num := fun k hk => num_ok hh.gas.keys r1 hk
      refYr := ?_
      just := ?_
      concKeys := ?_
      mainConc := ?_
      mainForc := ?_
      mainGas := ?_
      trop := ?_
      forcKeys := ?_
      efficiency := ?_
      aerosolAlpha := ?_
      aerosolRef := ?_
      concRows := ?_
      concCols := ?_
      emisRows := ?_
      emisCo2 := ?_
      emisGas := ?_
      ozone := ?_
      methane := ?_
      natural := ?_
      tot := ?_ }
  · have := hkg.pam "conc_run" (by
      unfold Factory.checkPamset cutAndCheckPamset
      rw [mem_keys_checkNumeric, mem_keys_cut]
      simp [Factory.handlerRequired, Dict.keys, Dict.has, Dict.get?, Dict.set]) (by decide)
    rw [pamB_congr this]
    simp only
    rw [pamB_congr (avoid_get? _ _ _ (by decide)), pamB_set]
  · intro y
    rw [hkg.before]
    apply beforeStart_of_int
    simp only
    rw [pamI_congr (avoid_get? _ _ _ (by decide)), pamI_set (by decide)]
    exact h3
  · simp only
    rw [hget _ (by decide), consistency_get? r1, if_neg (by decide)]
    obtain ⟨v, hv⟩ := (get?_isSome_iff _ _).2 (lifetime_key p)
    rw [hv]
    exact ⟨v, rfl⟩
  · simp only
    rw [← href]
    refine pamI_congr ?_
    rw [hget _ (by decide), consistency_get? r1, if_neg (by decide)]
    obtain ⟨v, hv⟩ := (get?_isSome_iff _ _).2
      (required_keys (F := F) (k := "ref_yr") (by simp [Factory.handlerRequired, Dict.keys]) p)
    rw [hv]
    rfl
  · intro v hv
    obtain ⟨key, rfl, hkey⟩ := hjg v hv
    refine ⟨key, rfl, ?_⟩
    simp only
    rw [hprec]
    rcases hkey with rfl | ⟨x, x1, x2, x3, x4⟩
    · exact mem_forcKeysOf.2 (Or.inl rfl)
    · refine mem_forcKeysOf.2 (Or.inr ⟨(hspicy key).2 ⟨(get?_isSome_iff _ _).1 ⟨x, x1⟩, fun hm => ?_, x3⟩, x4⟩)
      obtain ⟨⟨x', x1', hu⟩, hm'⟩ := (hvan key).1 hm
      rw [x1, Option.some.injEq] at x1'
      subst x1'
      rcases x2 with h | rfl | rfl | rfl
      · exact hu h
      · simp at hm'
      · simp at hm'
      · simp at hm'
  · intro t ht
    simp only at ht
    rw [hconcKeys] at ht
    unfold concKeysOf at ht
    obtain ⟨s1, s2⟩ := List.mem_filter.1 ht
    by_cases hm : t ∈ ["CO2", "CH4", "N2O"]
    · exact Or.inr hm
    · left
      obtain ⟨x, hx, hu⟩ := hnoconc t s1 hm
      have ht' : t = "TROP_O3" := by
        rw [decide_eq_true_iff] at s2
        refine s2.2.resolve_right ?_
        unfold gasOr
        rw [hx]
        exact fun hn => hn hu
      obtain ⟨x', e1, e2, -⟩ := canon_some hgas hx
      exact ⟨ht', x', e1, e2.trans hu⟩
  · intro t ht
    simp only
    rw [hconcKeys]
    unfold concKeysOf
    obtain ⟨x, hx, hu⟩ := hg.main t ht
    refine List.mem_filter.2 ⟨hmainSpicy t ht, ?_⟩
    rw [decide_eq_true_iff]
    refine ⟨by rintro rfl; simp at ht, Or.inr ?_⟩
    unfold gasOr
    rw [hx]
    exact hu
  · intro t ht
    exact hforc' t (hmainSpicy t ht) (by rintro rfl; simp at ht)
  · intro t ht
    obtain ⟨x, hx, hu⟩ := hg.main t ht
    obtain ⟨x', e1, e2, -⟩ := canon_some hgas hx
    exact ⟨x', e1, by rw [e2]; exact hu⟩
  · intro ht
    simp only at ht ⊢
    rw [hconcKeys]
    have hs := (hforc _ ht).resolve_left (by decide)
    unfold concKeysOf
    refine List.mem_filter.2 ⟨hs, ?_⟩
    rw [decide_eq_true_iff]
    exact ⟨by decide, Or.inl rfl⟩
  · intro t ht hm
    rcases hforc t ht with rfl | hs
    · left
      refine ⟨rfl, ?_⟩
      rw [get?_eq_none_iff, show hh.gas.keys = i.gas.keys from hk.keys]
      exact hg.notTotal
    · right
      obtain ⟨x, hx, hu⟩ := hnoconc t hs hm
      obtain ⟨x', e1, e2, -⟩ := canon_some hgas hx
      exact ⟨x', e1, e2.trans hu⟩
  · intro t x hx hu ha hn ht
    obtain ⟨x0, e1, e2, e3⟩ := canon_some hgas' hx
    rw [← e3]
    refine hg.efficiency t x0 e1 (e2.trans hu) ?_ ?_
    · rw [← aerosolName_iff, ha]; decide
    · intro hmem
      simp only [List.mem_cons, List.not_mem_nil, or_false, not_or] at hmem hn
      rcases hmem with h' | h' | h'
      · exact hn.1 h'
      · exact hn.2 h'
      · rcases hforc t ht with h'' | hs
        · rw [h''] at h'; exact absurd h' (by decide)
        · exact ((hspicy t).1 hs).2.2 h'
  · intro t x hx hu ha he
    obtain ⟨x0, e1, e2, e3⟩ := canon_some hgas' hx
    have : hh.emis = emis := hk.emis
    simp only
    rw [this, hcols]
    exact h.aerosolAlpha t x0 e1 (e2.trans hu) ((aerosolName_iff t).1 ha) (by rw [e3]; exact he)
  · intro t x sp hx hu ha he hsp
    obtain ⟨x0, e1, e2, e3⟩ := canon_some hgas' hx
    have : hh.emis = emis := hk.emis
    simp only
    rw [this, hcols]
    exact h.aerosolRef t x0 _ e1 (e2.trans hu) ((aerosolName_iff t).1 ha) (by rw [e3]; exact he) (driving hsp)
  · intro y y1 y2
    have : hh.concIn = i.concIn := hk.concIn
    simp only
    rw [this]
    exact h.concRows.mem y1 y2
  · intro t ht
    have : hh.concIn = i.concIn := hk.concIn
    simp only
    rw [this]
    exact h.concCols t (hg.main t ht)
  · intro y y1 y2
    have : hh.emis = emis := hk.emis
    simp only
    rw [this, hidx]
    exact h.emisRows.mem y1 y2
  · intro hr
    have : hh.emis = emis := hk.emis
    simp only
    rw [this, hcols]
    exact h.emisCo2 hr
  · intro hr
    have : hh.emis = emis := hk.emis
    simp only
    rw [this, hcols]
    exact ⟨h.emisGas hr _ (hg.main "CH4" (by simp)) (by decide), h.emisGas hr _ (hg.main "N2O" (by simp)) (by decide)⟩
  · intro ht
    have e1 : hh.emis = emis := hk.emis
    have e2 : hh.concIn = i.concIn := hk.concIn
    simp only
    rw [e1, e2, hcols, hidx]
    exact h.ozone ((hspicy _).1 ((hforc _ ht).resolve_left (by decide))).1
  · intro hr
    have e1 : hh.emis = emis := hk.emis
    simp only
    rw [e1, hcols, hidx]
    exact h.methane hr
  · intro hr
    have e1 : hh.natCh4 = i.natCh4 := hk.natCh4
    have e2 : hh.natN2o = i.natN2o := hk.natN2o
    simp only
    rw [e1, e2]
    exact h.natural hr
  · intro y y1 y2
    simp only
    rw [hprec]
    exact htot y y1 y2

end
end Verif.Props
