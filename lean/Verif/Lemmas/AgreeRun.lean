import Verif.Lemmas.AgreeConstruct
import Verif.Lemmas.Pams

/-! # Two runs whose inputs agree up to a year -/

namespace Verif.Model.Driver
open Verif.Py Verif.Model Verif.Model.Handler Verif.Spec
open Verif.Py.Dict (get? get?_set)

section
variable {F κ τ : Type} [Add F] [Sub F] [Mul F] [Div F] [Neg F] [OfScientific F] [LT F] [DecidableLT F]
  [MathFn F]

omit [Add F] [Sub F] [Mul F] [Div F] [Neg F] [OfScientific F] [LT F] [DecidableLT F] [MathFn F] in
theorem frameAgree_at {E : String → ℤ → Prop} {t t' : Frame F} (a : FrameUpTo E t t') {c : String} {z : ℤ}
    (h : E c z) : t'.at' c z = t.at' c z := by
  unfold Frame.at'
  rw [a.cols]
  simp only [a.idx c z h]
  by_cases hc : c ∈ t.cols ∧ z ∈ t.idx
  · rw [if_pos hc, if_pos hc, a.cell c hc.1 z hc.2 h]
  · rw [if_neg hc, if_neg hc]

omit [Add F] [Sub F] [Mul F] [Div F] [Neg F] [OfScientific F] [LT F] [DecidableLT F] [MathFn F] in
theorem rowOf_agree {α : Type} {first y z : ℤ} {l l' : List α} (h : RowsUpTo first y l l') (hz : z ≤ y) :
    rowOf l' (z - first) = rowOf l (z - first) := by
  unfold rowOf
  by_cases hn : z - first < 0
  · rw [if_pos hn, if_pos hn]
  · rw [if_neg hn, if_neg hn, h (z - first).toNat (by omega)]

/-! ## The result series -/

theorem entry_final {cops : CarbonOps F κ} {tops : ThermalOps F τ} {d d' : Driver F κ}
    {p : RunPams F} {t' : τ} {tr : ℤ → RunState F κ τ} (ht : Trace cops tops d p d' t' tr)
    (hnd : (tops.outputs.map Prod.fst ++ forcOutputList).Nodup) (o : String) {y : ℤ}
    (h1 : d.nystart ≤ y) (h2 : y ≤ d.nyend) :
    entry d'.results o (y - d.nystart).toNat = entry (tr (y + 1)).results o (y - d.nystart).toNat := by
  have hres : d'.results = (tr (d.nyend + 1)).results := by rw [ht.last.1]
  rw [hres]
  refine ht.keep (fun s => entry s.results o (y - d.nystart).toNat =
    entry (tr (y + 1)).results o (y - d.nystart).toNat) (y + 1) (d.nyend + 1) (by omega) ?_ rfl
  intro z h3 h4 e
  obtain ⟨f, vn, vs, values, -, -, -, -, -, ha⟩ := yearStep_spec (ht.step z (by omega) (by omega))
  rw [(addYearData_spec hnd ha).2.1 o _ (by omega), e]

theorem _root_.Verif.Spec.SeriesUpTo.longer {y : ℤ} {d d' : Driver F κ} (h : SeriesUpTo y d d') : SeriesLonger y d d' :=
  ⟨h.nystart, le_of_eq h.nyend.symm, h.feedback, h.sun, h.luc, h.volcN, h.volcS⟩

theorem run_pair {cops : CarbonOps F κ} {tops : ThermalOps F τ} {d d' d1 d1' : Driver F κ}
    {p p' : RunPams F} {t1 t1' : τ} {tr tr' : ℤ → RunState F κ τ}
    (ht : Trace cops tops d p d1 t1 tr) (ht' : Trace cops tops d' p' d1' t1' tr')
    (hnd : (tops.outputs.map Prod.fst ++ forcOutputList).Nodup)
    {y : ℤ} (hs : SeriesLonger y d d') (hudm : p'.udm = p.udm) (R : ℤ → Source F κ → Source F κ → Prop)
    (h0 : R d.nystart (tr d.nystart).source (tr' d.nystart).source)
    (hstep : ∀ z s s' v f f' s1 s1', d.nystart ≤ z → z ≤ y → z ≤ d.nyend → R z s s' →
      yearForcing cops d s v z = .ok (f, s1) → yearForcing cops d' s' v z = .ok (f', s1') →
      f' = f ∧ R (z + 1) s1 s1') :
    ∀ z, d.nystart ≤ z → z ≤ y + 1 → z ≤ d.nyend + 1 →
      (tr' z).thermal = (tr z).thermal ∧ (tr' z).values = (tr z).values ∧
      R z (tr z).source (tr' z).source ∧
      (d.nystart < z → ∀ o ∈ tops.outputs.map Prod.fst ++ forcOutputList,
        entry (tr' z).results o (z - 1 - d.nystart).toNat = entry (tr z).results o (z - 1 - d.nystart).toNat) := by
  have key : ∀ (n : ℕ) (z : ℤ), z = d.nystart + n → z ≤ y + 1 → z ≤ d.nyend + 1 →
      (tr' z).thermal = (tr z).thermal ∧ (tr' z).values = (tr z).values ∧
      R z (tr z).source (tr' z).source ∧
      (d.nystart < z → ∀ o ∈ tops.outputs.map Prod.fst ++ forcOutputList,
        entry (tr' z).results o (z - 1 - d.nystart).toNat = entry (tr z).results o (z - 1 - d.nystart).toNat) := by
    intro n
    induction n with
    | zero =>
      intro z hz _ _
      have hz' : z = d.nystart := by simpa using hz
      subst hz'
      obtain ⟨-, c1, -, v1⟩ := startRun_spec ht.start
      have hst := ht'.start
      rw [hs.nystart] at hst
      obtain ⟨-, c2, -, v2⟩ := startRun_spec hst
      rw [hudm, c1, Except.ok.injEq] at c2
      exact ⟨c2.symm, by rw [v1, v2], h0, fun h => absurd h (lt_irrefl _)⟩
    | succ n ih =>
      intro z hz h1 h2
      obtain ⟨i1, i2, i3, -⟩ := ih (z - 1) (by push_cast at hz; omega) (by omega) (by omega)
      have e : z - 1 + 1 = z := by omega
      obtain ⟨f, vn, vs, values, a1, a2, a3, a4, a5, a6⟩ :=
        yearStep_spec (ht.step (z - 1) (by push_cast at hz; omega) (by omega))
      obtain ⟨f', vn', vs', values', b1, b2, b3, b4, b5, b6⟩ :=
        yearStep_spec (ht'.step (z - 1) (by rw [hs.nystart]; push_cast at hz; omega)
          (by have := hs.nyend; omega))
      rw [e] at a1 a4 a5 a6 b1 b4 b5 b6
      rw [hs.nystart] at b2 b3 b6
      rw [i2] at b1
      obtain ⟨rfl, hR⟩ := hstep (z - 1) _ _ _ _ _ _ _ (by push_cast at hz; omega) (by omega) (by omega)
        i3 a1 b1
      rw [rowOf_agree hs.volcN (by omega), a2, Except.ok.injEq] at b2
      rw [rowOf_agree hs.volcS (by omega), a3, Except.ok.injEq] at b3
      subst b2 b3
      rw [i1, a4, Except.ok.injEq, Prod.mk.injEq] at b4
      obtain ⟨rfl, b4⟩ := b4
      rw [e] at hR
      refine ⟨b4.symm, by rw [a5, b5], hR, ?_⟩
      intro _ o ho
      obtain ⟨-, -, p1, p2, ⟨s, p3, p4⟩, ⟨v, p5, p6⟩, ⟨w, p7, p8⟩⟩ := addYearData_spec hnd a6
      obtain ⟨-, -, q1, q2, ⟨s', q3, q4⟩, ⟨v', q5, q6⟩, ⟨w', q7, q8⟩⟩ := addYearData_spec hnd b6
      rw [rowOf_agree hs.sun (by omega), p3, Except.ok.injEq] at q3
      rw [rowOf_agree hs.volcN (by omega), p5, Except.ok.injEq] at q5
      rw [rowOf_agree hs.volcS (by omega), p7, Except.ok.injEq] at q7
      subst q3 q5 q7
      rcases List.mem_append.1 ho with ho | ho
      · obtain ⟨x, hx, rfl⟩ := List.mem_map.1 ho
        obtain ⟨v1, c1, c2⟩ := p1 x hx
        obtain ⟨v2, c3, c4⟩ := q1 x hx
        rw [c1, Option.some.injEq] at c3
        rw [c2, c4, c3]
      · simp only [forcOutputList, List.mem_cons, List.not_mem_nil, or_false] at ho
        rcases ho with rfl | rfl | rfl | rfl
        · rw [p2, q2]
        · rw [p4, q4]
        · rw [p6, q6]
        · rw [p8, q8]
  intro z h1 h2 h3
  exact key (z - d.nystart).toNat z (by omega) h2 h3

/-! ## The gas table keeps its rows -/

theorem otherStep_keys {h h' : Handler F κ} {yr : ℤ} {t : String} (e : otherStep yr h t = .ok h') :
    h'.gas.keys = h.gas.keys := by
  unfold otherStep at e
  simp only [bind_eq_ok] at e
  obtain ⟨cl, -, m, hm, q, -, g, -, em, -, e⟩ := e
  rw [pure_ok, Except.ok.injEq] at e
  subst e
  have key : ∀ {g : Gas F} {v : F}, h.gasAt t = .ok g →
      (Dict.set h.gas t { g with natEm := v }).keys = h.gas.keys := by
    intro g v hg
    exact Dict.keys_set_of_mem _ _ _ ((Dict.get?_isSome_iff _ _).1 ⟨g, gasAt_eq_ok.1 hg⟩)
  unfold setNatEm at hm
  simp only [Handler.setConc]
  split at hm
  · simp only [bind_eq_ok] at hm
    obtain ⟨v, -, g, hg, hm⟩ := hm
    rw [pure_ok, Except.ok.injEq] at hm
    subst hm
    exact key hg
  · split at hm
    · simp only [bind_eq_ok] at hm
      obtain ⟨v, -, g, hg, hm⟩ := hm
      rw [pure_ok, Except.ok.injEq] at hm
      subst hm
      exact key hg
    · rw [Except.ok.injEq] at hm
      subst hm
      rfl

theorem emi2conc_keys {ops : CarbonOps F κ} {h h' : Handler F κ} {yr : ℤ} {fb : Option (Dict F)}
    (e : emi2conc ops h yr fb = .ok h') : h'.gas.keys = h.gas.keys := by
  obtain ⟨run, _, ⟨_, e⟩ | ⟨_, es, _, ⟨_, e⟩ | ⟨_, e⟩⟩⟩ := emi2conc_cases e
  · rw [(fillOneRow_spec e).2.2.2.1]
  · rw [(beforeEmstart_spec e).2.2.2.1]
  · refine foldlM_inv (fun b : Handler F κ => b.gas.keys = h.gas.keys) ?_ _ (addRowOfZeros h yr) _ rfl e
    intro b t b' hb hx
    obtain ⟨g, _, ⟨_, rfl⟩ | ⟨_, ht, hx⟩ | ⟨_, ht, hx⟩⟩ := tracerStep_spec hx
    · exact hb
    · rw [(co2Step_spec hx).2.2.1, hb]
    · rw [otherStep_keys hx, hb]

theorem handler_keys {cops : CarbonOps F κ} {tops : ThermalOps F τ} {d : Driver F κ}
    {tr : ℤ → RunState F κ τ} {hs : ℤ → Handler F κ}
    (hy : ∀ y, d.nystart ≤ y → y ≤ d.nyend → ∃ h1 luc sun r values vn vs,
      HandlerYear cops tops d (tr y) (tr (y + 1)) (hs y) h1 (hs (y + 1)) y luc sun r values vn vs)
    {b : ℤ} (h1 : d.nystart ≤ b) (h2 : b ≤ d.nyend + 1) : (hs b).gas.keys = (hs d.nystart).gas.keys := by
  obtain ⟨n, rfl⟩ : ∃ n : ℕ, b = d.nystart + n := ⟨(b - d.nystart).toNat, by omega⟩
  clear h1
  induction n with
  | zero => rw [Nat.cast_zero, add_zero]
  | succ n ih =>
    have e : d.nystart + ((n + 1 : ℕ) : ℤ) = d.nystart + n + 1 := by push_cast; ring
    obtain ⟨m, luc, sun, r, values, vn, vs, hyr⟩ := hy (d.nystart + n) (by omega) (by push_cast at h2; omega)
    obtain ⟨i, _, _, _, hg, _⟩ := conc2forc_frame hyr.forc
    rw [e, ← ih (by push_cast at h2; omega), ← emi2conc_keys hyr.emi]
    exact congrArg Dict.keys hg

/-! ## Construction and reset -/

omit [LT F] [DecidableLT F] in
theorem construct_spec {ops : CarbonOps F κ} {i : Inputs F} {pamset carb : Option (Dict (PyVal F))}
    {h : Handler F κ} (e : construct ops i pamset carb = .ok h) :
    ∃ ns ne emis clbr prec pre k0 k,
      pamI (Factory.checkPamset pamset) "nystart" = .ok ns ∧
      pamI (Factory.checkPamset pamset) "nyend" = .ok ne ∧
      perturbedEmis i = .ok emis ∧ PubUtils.makeClAndBr i.gas.keys = .ok clbr ∧
      precalculate i.gas i.concIn emis (Dict.set (Factory.checkPamset pamset) "conc_run" (.bool i.concRun))
        i.pertForc (pyRange ns (ne + 1)) clbr.1 clbr.2 = .ok prec ∧
      i.concIn.at' "CO2" ns = .ok pre ∧
      ops.create (Dict.set (Factory.checkPamset pamset) "conc_run" (.bool i.concRun))
        (Dict.set (carb.getD []) "preindustrial_co2_conc" (.flt pre)) = .ok k0 ∧
      ops.reset k0 (some (Dict.set (carb.getD []) "preindustrial_co2_conc" (.flt pre))) = .ok k ∧
      h = { gas := i.gas, natCh4 := i.natCh4, natN2o := i.natN2o, concIn := i.concIn, emis := emis,
            pam := avoidRegionalDoubleCounting i.gas.keys
              (Dict.set (Factory.checkPamset pamset) "conc_run" (.bool i.concRun)),
            pert := i.pertForc, years := pyRange ns (ne + 1), prec := prec, carbon := k,
            concKeys := concKeysOf i.gas prec.spicy, conc := fun _ _ => none,
            forcKeys := forcKeysOf prec.spicy, forc := fun _ _ => 0.0 } := by
  unfold construct at e
  simp only [bind_eq_ok] at e
  obtain ⟨ns, h1, ne, h2, emis, h3, clbr, h4, prec, h5, pre, h6, k0, h7, e⟩ := e
  unfold resetArrays at e
  simp only [bind_eq_ok] at e
  obtain ⟨k, h8, e⟩ := e
  rw [pure_ok, Except.ok.injEq] at e
  exact ⟨ns, ne, emis, clbr, prec, pre, k0, k, h1, h2, h3, h4, h5, h6, h7, h8, e.symm⟩

theorem concKeys_nodup {ops : CarbonOps F κ} {i : Inputs F} {pamset carb p q : Option (Dict (PyVal F))}
    {h g : Handler F κ} (hgas : i.gas.keys.Nodup) (e : construct ops i pamset carb = .ok h)
    (r : resetWithNewPams ops h p q = .ok g) : g.concKeys.Nodup := by
  obtain ⟨ns1, ne1, emis, clbr, prec, pre, k0, k, h1, h2, h3, h4, h5, h6, h7, h8, rfl⟩ := construct_spec e
  obtain ⟨pam, c, r1, r2, rfl⟩ := reset_spec r
  obtain ⟨t, -, -, hs⟩ := precalculate_pert h5
  simp only [hs]
  unfold concKeysOf
  exact List.Nodup.filter _ (List.Nodup.filter _ hgas)

theorem co2Unit_reset {ops : CarbonOps F κ} {h g : Handler F κ} {p q : Option (Dict (PyVal F))}
    (r : resetWithNewPams ops h p q = .ok g) : Co2Unit g := by
  obtain ⟨pam, c, r1, r2, rfl⟩ := reset_spec r
  intro hc g0 hg0
  simp only at hc hg0
  unfold concKeysOf at hc
  have := (List.mem_filter.1 hc).2
  simp only [decide_eq_true_eq] at this
  rcases this.2 with h1 | h1
  · exact absurd h1 (by decide)
  · unfold gasOr at h1
    rw [hg0] at h1
    exact h1

omit [Add F] [Sub F] [Mul F] [Div F] [Neg F] [LT F] [DecidableLT F] [MathFn F] in
theorem avoid_congr (gases : List String) (k : String) {r r' : Dict (PyVal F)} (h : get? r' k = get? r k) :
    get? (avoidRegionalDoubleCounting gases r') k = get? (avoidRegionalDoubleCounting gases r) k := by
  unfold avoidRegionalDoubleCounting
  generalize globalAerosols = l
  induction l generalizing r r' with
  | nil => exact h
  | cons a l ih =>
    rw [List.foldl_cons, List.foldl_cons]
    apply ih
    split
    · rw [get?_set, get?_set, h]
    · exact h


/-- Two constructions with parameters that differ at most in the last year, followed by the reset of a run. -/
theorem start_longer {ops : CarbonOps F κ} {i i' : Inputs F} {pamset pamset' carb p q : Option (Dict (PyVal F))}
    {h h' g g' : Handler F κ} {y ref ns es ne ne' : ℤ} (C : κ → κ → Prop) (hi : InputsLonger y ref i i')
    (hgas : i.gas.keys.Nodup) (hy : ns ≤ y)
    (hpam : ∀ k, k ≠ "nyend" → get? (Factory.checkPamset pamset') k = get? (Factory.checkPamset pamset) k)
    (hend : ne' = ne ∨ y ≤ ne ∧ ne ≤ ne') (hreg : i.concRun = true ∨ (ne ≤ es ↔ ne' ≤ es))
    (ht : RunTables i.concIn i.emis (Dict.set (Factory.checkPamset pamset) "conc_run" (.bool i.concRun)) ns es ne)
    (ht' : RunTables i'.concIn i'.emis (Dict.set (Factory.checkPamset pamset') "conc_run" (.bool i'.concRun)) ns es ne')
    (hC : ∀ pre k0 k0' k k' c c',
      ops.create (Dict.set (Factory.checkPamset pamset) "conc_run" (.bool i.concRun))
        (Dict.set (carb.getD []) "preindustrial_co2_conc" (.flt pre)) = .ok k0 →
      ops.create (Dict.set (Factory.checkPamset pamset') "conc_run" (.bool i.concRun))
        (Dict.set (carb.getD []) "preindustrial_co2_conc" (.flt pre)) = .ok k0' →
      ops.reset k0 (some (Dict.set (carb.getD []) "preindustrial_co2_conc" (.flt pre))) = .ok k →
      ops.reset k0' (some (Dict.set (carb.getD []) "preindustrial_co2_conc" (.flt pre))) = .ok k' →
      ops.reset k q = .ok c → ops.reset k' q = .ok c' → C c c')
    (e : construct ops i pamset carb = .ok h) (e' : construct ops i' pamset' carb = .ok h')
    (r : resetWithNewPams ops h p q = .ok g) (r' : resetWithNewPams ops h' p q = .ok g') :
    Agree C (EmisCell y ref) (ConcCell y ref) (· ≤ y) g g' ∧ PrecAgree (· ≤ y) g.prec g'.prec ∧
      g'.gas.keys = g.gas.keys ∧ g.years = pyRange ns (ne + 1) ∧ g'.years = pyRange ns (ne' + 1) := by
  obtain ⟨ns1, ne1, emis, clbr, prec, pre, k0, k, h1, h2, h3, h4, h5, h6, h7, h8, rfl⟩ := construct_spec e
  obtain ⟨ns2, ne2, emis', clbr', prec', pre', k0', k', h1', h2', h3', h4', h5', h6', h7', h8', rfl⟩ :=
    construct_spec e'
  have hset : ∀ (s : Option (Dict (PyVal F))) b k, k ≠ "conc_run" → pamI (Dict.set (Factory.checkPamset s) "conc_run"
      (.bool b)) k = pamI (Factory.checkPamset s) k := by
    intro s b k hk
    unfold pamI Dict.getE
    rw [Dict.get?_set, if_neg (fun e => hk e.symm)]
  have hrun : ∀ (s : Option (Dict (PyVal F))) b, pamB (Dict.set (Factory.checkPamset s) "conc_run" (.bool b)) "conc_run" =
      .ok b := by
    intro s b
    unfold pamB Dict.getE
    rw [Dict.get?_set, if_pos rfl]
    rfl
  have hns := ht.nystart
  have hne := ht.nyend
  have hns' := ht'.nystart
  have hne' := ht'.nyend
  rw [hset _ _ _ (by decide)] at hns hne hns' hne'
  rw [hns, Except.ok.injEq] at h1
  rw [hne, Except.ok.injEq] at h2
  rw [hns', Except.ok.injEq] at h1'
  rw [hne', Except.ok.injEq] at h2'
  subst h1 h2 h1' h2'
  rw [hi.gas, h4, Except.ok.injEq] at h4'
  subst h4'
  rw [hi.concRun] at h5' h7' ht'
  rw [hi.gas] at h5'
  have he := emis_agree hi h3 h3'
  have tab : ∀ {i : Inputs F} {emis : Frame F} {pam : Dict (PyVal F)} {ne : ℤ}, RunTables i.concIn i.emis pam ns es ne →
      perturbedEmis i = .ok emis → RunTables i.concIn emis pam ns es ne := by
    intro i emis pam ne ht h3
    exact ⟨ht.nystart, ht.nyend, ht.emstart, ht.concIdx, by rw [(perturbedEmis_cell h3).2.1]; exact ht.emisIdx,
      ht.nonempty, ht.order⟩
  have hprec := precalculate_agree (hrun _ _) (hrun _ _) hend hreg hgas hy (tab ht h3) (tab ht' h3') hi.concIn he
    hi.pertForc h5 h5'
  rw [frameAgree_at hi.concIn (Or.inl hy), h6, Except.ok.injEq] at h6'
  subst h6'
  obtain ⟨pam, c, r1, r2, rfl⟩ := reset_spec r
  obtain ⟨pam', c', r1', r2', rfl⟩ := reset_spec r'
  simp only at r2 r2'
  have hcc := hC pre k0 k0' k k' c c' h7 h7' h8 h8' r2 r2'
  have hget : ∀ k, k ≠ "nyend" → get? (avoidRegionalDoubleCounting i.gas.keys pam') k =
      get? (avoidRegionalDoubleCounting i.gas.keys pam) k := by
    intro k hk
    apply avoid_congr
    have : get? (avoidRegionalDoubleCounting i.gas.keys
        (Dict.set (Factory.checkPamset pamset') "conc_run" (PyVal.bool i.concRun))) k =
        get? (avoidRegionalDoubleCounting i.gas.keys
        (Dict.set (Factory.checkPamset pamset) "conc_run" (PyVal.bool i.concRun))) k := by
      apply avoid_congr
      rw [get?_set, get?_set, hpam k hk]
    rw [consistency_get? r1, consistency_get? r1', hi.gas, hi.concRun, this]
  refine ⟨?_, hprec, ?_, rfl, rfl⟩
  · constructor <;> simp only
    · exact fun z hz => frameAgree_at hi.natCh4 hz
    · exact fun z hz => frameAgree_at hi.natN2o hz
    · exact hi.concIn.cols
    · exact fun t z hz => frameAgree_at hi.concIn hz
    · exact fun t z hz => frameAgree_at he hz
    · rw [hi.gas]
      refine ⟨fun k hk => hget k (fun e => hk (by rw [e]; decide)), fun yr => ?_⟩
      unfold beforeStart Dict.getE
      rw [hget _ (by decide)]
    · exact hi.pertForc
    · unfold Handler.y0
      have h0 := ht.nonempty
      have h0' := ht'.nonempty
      simp only [pyRange_cons (a := ns) (b := ne + 1) (by omega), pyRange_cons (a := ns) (b := ne' + 1) (by omega)]
    · intro z n hz
      have h0 := ht.nonempty
      have h0' := ht'.nonempty
      unfold Handler.index Handler.y0 at hz ⊢
      simp only [pyRange_length] at hz ⊢
      rw [pyRange_cons (by omega), bind_ok] at hz
      rw [pyRange_cons (by omega), bind_ok]
      split at hz
      · cases hz
      · rename_i hz1
        split at hz
        · cases hz
        · rename_i hz2
          rw [if_neg hz1, if_neg (by omega)]
          exact hz
    · rw [hi.gas, hprec.spicy]
    · rw [hprec.spicy]
    · exact hcc
    · exact fun z hz => hprec.tot hz
    · exact fun _ _ _ => trivial
    · exact fun _ _ _ _ _ => trivial
    · intro t; rw [hi.gas]
  · simp only [hi.gas]

theorem start_agree {ops : CarbonOps F κ} {i i' : Inputs F} {pamset carb p q : Option (Dict (PyVal F))}
    {h h' g g' : Handler F κ} {y ref ns es ne : ℤ} (hi : InputsUpTo y ref i i') (hgas : i.gas.keys.Nodup)
    (hy : ns ≤ y)
    (ht : RunTables i.concIn i.emis (Dict.set (Factory.checkPamset pamset) "conc_run" (.bool i.concRun)) ns es ne)
    (e : construct ops i pamset carb = .ok h) (e' : construct ops i' pamset carb = .ok h')
    (r : resetWithNewPams ops h p q = .ok g) (r' : resetWithNewPams ops h' p q = .ok g') :
    Agree Eq (EmisCell y ref) (ConcCell y ref) (· ≤ y) g g' ∧ PrecAgree (· ≤ y) g.prec g'.prec ∧
      g'.gas.keys = g.gas.keys ∧ g.years = pyRange ns (ne + 1) ∧ g'.years = pyRange ns (ne + 1) := by
  refine start_longer Eq hi.longer hgas hy (fun _ _ => rfl) (Or.inl rfl) (Or.inr Iff.rfl) ht ?_ ?_ e e' r r'
  · rw [hi.concRun]
    exact ⟨ht.nystart, ht.nyend, ht.emstart, by rw [hi.concIn.idx]; exact ht.concIdx,
      by rw [hi.emis.idx]; exact ht.emisIdx, ht.nonempty, ht.order⟩
  · intro pre k0 k0' k k' c c' a1 a2 a3 a4 a5 a6
    rw [a1, Except.ok.injEq] at a2
    subst a2
    rw [a3, Except.ok.injEq] at a4
    subst a4
    rw [a5, Except.ok.injEq] at a6
    exact a6

/-! ## Two runs of handlers that agree -/

/-- Two runs of handlers that agree: the handlers still agree at the end, and so do the results. -/
theorem run_agree_full {cops : CarbonOps F κ} {tops : ThermalOps F τ} {d d' d1 d1' : Driver F κ}
    {h h' : Handler F κ} {p p' : RunPams F} {t t' : τ} {y : ℤ} {E K : String → ℤ → Prop}
    (C : ℤ → κ → κ → Prop)
    (hnd : (tops.outputs.map Prod.fst ++ forcOutputList).Nodup) (hs : SeriesLonger y d d')
    (hd : d.source = .handler h) (hd' : d'.source = .handler h') (hudm : p'.udm = p.udm)
    (hne : d.nystart ≤ d.nyend)
    (hstart : d.nystart ≤ y → ∀ g g', resetWithNewPams cops h p.emiconc p.carbon = .ok g →
      resetWithNewPams cops h' p'.emiconc p'.carbon = .ok g' →
      Agree (C d.nystart) E K (· ≤ y) g g' ∧ PrecAgree (· ≤ y) g.prec g'.prec ∧
      g'.gas.keys = g.gas.keys ∧ g.years = pyRange d.nystart (d.nyend + 1) ∧
      g'.years = pyRange d.nystart (d'.nyend + 1) ∧ g.concKeys.Nodup ∧
      Co2Unit g ∧ Scope g.pam E K (· ≤ y) ∧
      (Steps g → ∀ z k k' fb, d.nystart ≤ z → z ≤ d.nyend → C z k k' → StepTo cops (C (z + 1)) z fb k k') ∧
      (¬ Steps g → ∀ z k k', d.nystart ≤ z → C z k k' → C (z + 1) k k'))
    (hr : run cops tops d p = .ok (d1, t)) (hr' : run cops tops d' p' = .ok (d1', t')) :
    ∃ g g', d1.source = .handler g ∧ d1'.source = .handler g' ∧
    (d.nyend ≤ y → d'.nyend = d.nyend → Agree (C (d.nyend + 1)) E K (· ≤ y) g g') ∧
    ∀ z, d.nystart ≤ z → z ≤ y → z ≤ d.nyend →
      (∀ o ∈ tops.outputs.map Prod.fst ++ forcOutputList,
        entry d1'.results o (z - d.nystart).toNat = entry d1.results o (z - d.nystart).toNat) ∧
      columnsAt (reportConc g') z = columnsAt (reportConc g) z ∧
      columnsAt (reportForcing g' d.nystart) z = columnsAt (reportForcing g d.nystart) z := by
  obtain ⟨tr, ht⟩ := run_trace hr
  obtain ⟨tr', ht'⟩ := run_trace hr'
  obtain ⟨H, hreset, hsrc, hyr⟩ := handler_trace ht hd
  obtain ⟨H', hreset', hsrc', hyr'⟩ := handler_trace ht' hd'
  rw [hs.nystart] at hreset'
  rw [hs.nystart] at hsrc'
  have ens := hs.nystart
  have ene := hs.nyend
  have e1 : d1.source = .handler (H (d.nyend + 1)) := by
    rw [ht.last.1, ← hsrc _ (by omega) (le_refl _)]
  have e1' : d1'.source = .handler (H' (d'.nyend + 1)) := by
    rw [ht'.last.1, ← hsrc' _ (by omega) (le_refl _)]
  refine ⟨_, _, e1, e1', ?_⟩
  by_cases hy : d.nystart ≤ y
  swap
  · exact ⟨fun h _ => absurd (le_trans hne h) hy, fun z z1 z2 => absurd (le_trans z1 z2) hy⟩
  obtain ⟨a0, ap, akeys, ayears, ayears', ckn, hcu, hscope, hcs, hcn⟩ := hstart hy _ _ hreset hreset'
  let R : ℤ → Source F κ → Source F κ → Prop := fun w s s' => ∃ g g', s = .handler g ∧ s' = .handler g' ∧
    Agree (C w) E K (· ≤ y) g g' ∧ Same (H d.nystart) g
  have hpair := run_pair ht ht' hnd hs hudm R
    ⟨_, _, hsrc _ (le_refl _) (by omega), hsrc' _ (le_refl _) (by omega), a0, Same.refl _⟩
    (by
      rintro w s s' v f f' s1 s1' w1 w2 w3 ⟨g, g', rfl, rfl, ag, hsame⟩ hf hf'
      unfold yearForcing at hf hf'
      simp only [bind_eq_ok] at hf hf'
      obtain ⟨m, m1, luc, m2, sun, m3, r, m4, hf⟩ := hf
      obtain ⟨m', m1', luc', m2', sun', m3', r', m4', hf'⟩ := hf'
      rw [hs.nystart, rowOf_agree hs.luc w2, m2, Except.ok.injEq] at m2'
      rw [hs.nystart, rowOf_agree hs.sun w2, m3, Except.ok.injEq] at m3'
      rw [hs.feedback] at m1'
      subst m2' m3'
      obtain ⟨am, ms⟩ := ag.emi2conc (C' := C (w + 1)) (hsame.pam ▸ hscope) w2
        (by rw [hsame.concKeys]; exact ckn) (hsame.co2Unit hcu)
        (fun st => hcs (hsame.steps_iff.1 st) w _ _ _ w1 w3 ag.carbon)
        (fun hn => hcn (fun st => hn (hsame.steps_iff.2 st)) w _ _ w1 ag.carbon) m1 m1'
      obtain ⟨hr1, ar, -, -⟩ := am.conc2forc ((hsame.trans ms).pam ▸ hscope) w2 m4 m4'
      obtain ⟨_, _, mr, _⟩ := conc2forc_frame m4
      rw [pure_ok, Except.ok.injEq, Prod.mk.injEq] at hf hf'
      obtain ⟨rfl, rfl⟩ := hf
      obtain ⟨rfl, rfl⟩ := hf'
      rw [hr1]
      exact ⟨rfl, _, _, rfl, rfl, ar, hsame.trans (ms.trans mr)⟩)
  refine ⟨fun hend heq => ?_, ?_⟩
  · rw [heq]
    obtain ⟨-, -, ⟨g, g', hg, hg', ag, -⟩, -⟩ := hpair (d.nyend + 1) (by omega) (by omega) (by omega)
    rw [hsrc _ (by omega) (by omega)] at hg
    rw [hsrc' _ (by omega) (by omega)] at hg'
    cases hg
    cases hg'
    exact ag
  intro z z1 z2 z3
  obtain ⟨-, -, ⟨g, g', hg, hg', ag, -⟩, hent⟩ := hpair (z + 1) (by omega) (by omega) (by omega)
  rw [hsrc _ (by omega) (by omega)] at hg
  rw [hsrc' _ (by omega) (by omega)] at hg'
  cases hg
  cases hg'
  obtain ⟨fs, fc, ff⟩ := handler_frozen hyr (a := z + 1) (b := d.nyend + 1) (by omega) (by omega) (le_refl _)
  obtain ⟨fs', fc', ff'⟩ := handler_frozen hyr' (a := z + 1) (b := d'.nyend + 1) (by omega) (by omega)
    (by omega)
  have s0 := (handler_frozen hyr (a := d.nystart) (b := d.nyend + 1) (by omega) (by omega) (le_refl _)).1
  have s0' := (handler_frozen hyr' (a := d.nystart) (b := d'.nyend + 1) (by omega) (by omega) (by omega)).1
  have hkeys : (H' (d'.nyend + 1)).gas.keys = (H (d.nyend + 1)).gas.keys := by
    rw [handler_keys hyr (by omega) (le_refl _), handler_keys hyr' (by omega) (by omega), ens, akeys]
  have hck : (H' (d'.nyend + 1)).concKeys = (H (d.nyend + 1)).concKeys := by
    rw [fs.concKeys, fs'.concKeys, ag.concKeys]
  have hfk : (H' (d'.nyend + 1)).forcKeys = (H (d.nyend + 1)).forcKeys := by
    rw [fs.forcKeys, fs'.forcKeys, ag.forcKeys]
  have ap' : PrecAgree (· ≤ y) (H (d.nyend + 1)).prec (H' (d'.nyend + 1)).prec := by
    rw [s0.prec, s0'.prec]; exact ap
  have hyears : (H (d.nyend + 1)).years = pyRange d.nystart (d.nyend + 1) := by rw [s0.years, ayears]
  have hyears' : (H' (d'.nyend + 1)).years = pyRange d.nystart (d'.nyend + 1) := by rw [s0'.years, ayears']
  have hin : z ∈ (H (d.nyend + 1)).years := by rw [hyears, mem_pyRange]; omega
  have hin' : z ∈ (H' (d'.nyend + 1)).years := by rw [hyears', mem_pyRange]; omega
  refine ⟨?_, ?_, ?_⟩
  · intro o ho
    have x1 := entry_final ht hnd o z1 z3
    have x2 := entry_final ht' hnd o (y := z) (by omega) (by omega)
    rw [ens] at x2
    have x3 := hent (by omega) o ho
    rw [show z + 1 - 1 = z by omega] at x3
    rw [x1, x2, x3]
  · unfold columnsAt reportConc
    rw [hkeys, hck, ap'.gases, List.map_map, List.map_map]
    apply List.map_congr_left
    intro k hk
    rw [List.mem_filter] at hk
    simp only [Function.comp, Prod.mk.injEq, true_and]
    rw [if_pos hin, if_pos hin']
    by_cases hkc : k ∈ (H (d.nyend + 1)).concKeys
    · rw [if_pos hkc, if_pos hkc, fc k z (by omega), fc' k z (by omega), ag.conc k z z2]
    · rw [if_neg hkc, if_neg hkc]
      have hkg : k ∈ (H (d.nyend + 1)).prec.gases := by
        have := hk.2
        simp only [hkc, false_or, decide_eq_true_eq] at this
        exact this
      exact ap'.conc k hkg z z2
  · unfold columnsAt reportForcing
    rw [hfk, ap'.cols, List.map_append, List.map_append, List.map_map, List.map_map, List.map_map,
      List.map_map]
    refine congrArg₂ (· ++ ·) ?_ ?_
    · apply List.map_congr_left
      intro k hk
      simp only [Function.comp, Prod.mk.injEq, true_and]
      rw [if_neg (by rw [hyears', pyRange_length]; omega), if_neg (by rw [hyears, pyRange_length]; omega)]
      · have hidx : (H (z + 1)).index z = .ok (z - d.nystart).toNat := by
          have h0 : (H (z + 1)).years = pyRange d.nystart (d.nyend + 1) := by rw [← fs.years, hyears]
          have hy0 : (H (z + 1)).y0 = .ok d.nystart := by
            unfold Handler.y0
            rw [h0, pyRange_cons (by omega)]
          unfold Handler.index
          rw [hy0, bind_ok, if_neg (by omega), h0, pyRange_length, if_neg (by omega)]
        rw [ff k z _ (by omega) hidx, ff' k z _ (by omega) (ag.index hidx),
          ag.forc k z _ z2 hidx]
    · apply List.map_congr_left
      intro k hk
      simp only [Function.comp, Prod.mk.injEq, true_and]
      exact ap'.erf k hk z z2

/-- The part about results only. -/
theorem run_agree {cops : CarbonOps F κ} {tops : ThermalOps F τ} {d d' d1 d1' : Driver F κ}
    {h h' : Handler F κ} {p p' : RunPams F} {t t' : τ} {y : ℤ} {E K : String → ℤ → Prop}
    (C : ℤ → κ → κ → Prop)
    (hnd : (tops.outputs.map Prod.fst ++ forcOutputList).Nodup) (hs : SeriesLonger y d d')
    (hd : d.source = .handler h) (hd' : d'.source = .handler h') (hudm : p'.udm = p.udm)
    (hne : d.nystart ≤ d.nyend)
    (hstart : d.nystart ≤ y → ∀ g g', resetWithNewPams cops h p.emiconc p.carbon = .ok g →
      resetWithNewPams cops h' p'.emiconc p'.carbon = .ok g' →
      Agree (C d.nystart) E K (· ≤ y) g g' ∧ PrecAgree (· ≤ y) g.prec g'.prec ∧
      g'.gas.keys = g.gas.keys ∧ g.years = pyRange d.nystart (d.nyend + 1) ∧
      g'.years = pyRange d.nystart (d'.nyend + 1) ∧ g.concKeys.Nodup ∧
      Co2Unit g ∧ Scope g.pam E K (· ≤ y) ∧
      (Steps g → ∀ z k k' fb, d.nystart ≤ z → z ≤ d.nyend → C z k k' → StepTo cops (C (z + 1)) z fb k k') ∧
      (¬ Steps g → ∀ z k k', d.nystart ≤ z → C z k k' → C (z + 1) k k'))
    (hr : run cops tops d p = .ok (d1, t)) (hr' : run cops tops d' p' = .ok (d1', t')) :
    ∃ g g', d1.source = .handler g ∧ d1'.source = .handler g' ∧
    ∀ z, d.nystart ≤ z → z ≤ y → z ≤ d.nyend →
      (∀ o ∈ tops.outputs.map Prod.fst ++ forcOutputList,
        entry d1'.results o (z - d.nystart).toNat = entry d1.results o (z - d.nystart).toNat) ∧
      columnsAt (reportConc g') z = columnsAt (reportConc g) z ∧
      columnsAt (reportForcing g' d.nystart) z = columnsAt (reportForcing g d.nystart) z := by
  obtain ⟨g, g', e, e', -, h⟩ := run_agree_full C hnd hs hd hd' hudm hne hstart hr hr'
  exact ⟨g, g', e, e', h⟩

/-- Two runs with prescribed forcing, of which the second may be longer. -/
theorem forcingRun_longer {cops : CarbonOps F κ} {tops : ThermalOps F τ} {d d' d1 d1' : Driver F κ}
    {rf rf' : Forcing F} {p p' : RunPams F} {t t' : τ} {y : ℤ}
    (hnd : (tops.outputs.map Prod.fst ++ forcOutputList).Nodup)
    (hs : SeriesLonger y d d') (hd : d.source = .forcing rf) (hd' : d'.source = .forcing rf')
    (hf : ForcingLonger d.nystart y rf rf') (hudm : p'.udm = p.udm)
    (hr : run cops tops d p = .ok (d1, t)) (hr' : run cops tops d' p' = .ok (d1', t')) :
    ∀ z, d.nystart ≤ z → z ≤ y → z ≤ d.nyend →
      ∀ o ∈ tops.outputs.map Prod.fst ++ forcOutputList,
        entry d1'.results o (z - d.nystart).toNat = entry d1.results o (z - d.nystart).toNat := by
  obtain ⟨tr, ht⟩ := run_trace hr
  obtain ⟨tr', ht'⟩ := run_trace hr'
  have ens := hs.nystart
  have ene := hs.nyend
  intro z z1 z2 z3 o ho
  let R : ℤ → Source F κ → Source F κ → Prop := fun _ s s' => s = .forcing rf ∧ s' = .forcing rf'
  have hstart : ∀ {d d1 : Driver F κ} {rf : Forcing F} {p : RunPams F} {t : τ} {tr : ℤ → RunState F κ τ},
      Trace cops tops d p d1 t tr → d.source = .forcing rf → (tr d.nystart).source = .forcing rf := by
    intro d d1 rf p t tr ht hd
    have := (startRun_spec ht.start).2.2.1
    rw [hd] at this
    unfold resetSource at this
    rw [Except.ok.injEq] at this
    exact this.symm
  have hpair := run_pair ht ht' hnd hs hudm R ⟨hstart ht hd, by rw [← ens]; exact hstart ht' hd'⟩
    (by
      rintro w s s' v f f' s1 s1' w1 w2 w3 ⟨rfl, rfl⟩ e e'
      unfold yearForcing at e e'
      simp only [bind_eq_ok] at e e'
      obtain ⟨a, ha, e⟩ := e
      obtain ⟨a', ha', e'⟩ := e'
      rw [pure_ok, Except.ok.injEq, Prod.mk.injEq] at e e'
      obtain ⟨rfl, rfl⟩ := e
      obtain ⟨rfl, rfl⟩ := e'
      refine ⟨?_, rfl, rfl⟩
      have hp : prescribed rf' d.nystart w = prescribed rf d.nystart w := by
        cases rf with
        | array xs =>
          cases rf' with
          | array xs' =>
            unfold prescribed
            simp only
            rw [rowOf_agree hf w2]
          | frame u => exact hf.elim
        | frame u =>
          cases rf' with
          | array xs' => exact hf.elim
          | frame u' =>
            have hat : ∀ c, u'.at' c w = u.at' c w := fun c => frameAgree_at hf w2
            unfold prescribed frameWeight
            have hcols : u'.cols = u.cols := hf.cols
            simp only [hat, hcols]
      unfold forcSet at ha ha'
      rw [ens, hp, rowOf_agree hs.sun w2, ha, Except.ok.injEq] at ha'
      exact ha'.symm)
  obtain ⟨-, -, -, hent⟩ := hpair (z + 1) (by omega) (by omega) (by omega)
  have x1 := entry_final ht hnd o z1 z3
  have x2 := entry_final ht' hnd o (y := z) (by omega) (by omega)
  rw [ens] at x2
  have x3 := hent (by omega) o ho
  rw [show z + 1 - 1 = z by omega] at x3
  rw [x1, x2, x3]

end
end Verif.Model.Driver
