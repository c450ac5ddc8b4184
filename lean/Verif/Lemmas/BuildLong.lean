import Verif.Lemmas.InputCreate
import Verif.Lemmas.Shared
import Verif.Spec.LookAhead

/-! # The input handlers of two configurations that differ in the last year -/

namespace Verif.Model.InputHandler
open Verif.Py Verif.Py.Dict Verif.Model Verif.Model.Handler Verif.Model.Driver Verif.Spec

section
variable {F κ τ : Type} [Add F] [Sub F] [Mul F] [Div F] [Neg F] [OfScientific F] [LT F] [DecidableLT F] [MathFn F]

/-- The keys of the configuration that are not inputs. -/
def reqKeys : List String := ["nystart", "nyend", "emstart", "idtm", "carbon_cycle_model", "thermal_model"]

/-- The keys under which data of the length of the run may be stored. -/
def freshKeys : List String := ["rf_volc_n_data", "rf_volc_s_data", "rf_sun_data", "nat_ch4_data", "nat_n2o_data"]

/-- Stored data of two handlers: the same, or rows that are all equal, or a constant, for each year of the run. -/
def FreshLong (ns ne ne' : ℤ) (v v' : Option (CfgVal F)) : Prop :=
  v' = v ∨
  (∃ row : List F, v = some (.data (.rows (List.replicate (ne - ns + 1).toNat row))) ∧
    v' = some (.data (.rows (List.replicate (ne' - ns + 1).toNat row)))) ∨
  ∃ (c : String) (x : F), v = some (.data (.table ⟨[c], pyRange ns (ne + 1), fun _ _ => x⟩)) ∧
    v' = some (.data (.table ⟨[c], pyRange ns (ne' + 1), fun _ _ => x⟩))

omit [Add F] [Sub F] [Mul F] [Div F] [Neg F] [OfScientific F] [LT F] [DecidableLT F] [MathFn F] in
theorem FreshLong.isSome {ns ne ne' : ℤ} {v v' : Option (CfgVal F)} (h : FreshLong ns ne ne' v v') :
    v'.isSome = v.isSome := by
  rcases h with h | ⟨_, h, h'⟩ | ⟨_, _, h, h'⟩
  · rw [h]
  · rw [h, h']; rfl
  · rw [h, h']; rfl

/-- Two handlers that differ in the last year only. -/
structure Long (a b : Handler F) : Prop where
  start : b.nystart = a.nystart
  other : ∀ k, k ∉ reqKeys → k ∉ freshKeys → get? b.cfg k = get? a.cfg k
  fresh : ∀ k ∈ freshKeys, FreshLong a.nystart a.nyend b.nyend (get? a.cfg k) (get? b.cfg k)

omit [Add F] [Sub F] [Mul F] [Div F] [Neg F] [OfScientific F] [LT F] [DecidableLT F] [MathFn F] in
theorem Long.has {a b : Handler F} (h : Long a b) {k : String} (hk : k ∉ reqKeys) : b.cfg.has k = a.cfg.has k := by
  unfold Dict.has
  by_cases e : k ∈ freshKeys
  · exact (h.fresh k e).isSome
  · rw [h.other k hk e]

theorem Long.optional {a b : Handler F} (h : Long a b) {what : String} (h1 : what ++ "_file" ∉ reqKeys)
    (h2 : what ++ "_data" ∉ reqKeys) : optionalPam b what = optionalPam a what := by
  unfold optionalPam
  rw [h.has h1, h.has h2]

/-- What is read under a key without default data, by a method that does not look at the years. -/
theorem Long.getData {fs : Files F} {a b : Handler F} (h : Long a b) {what : String}
    (hw : what ∈ ["forc", "gaspam", "perturb_em", "perturb_forc"]) : getData fs b what = getData fs a what := by
  have e1 : get? b.cfg (what ++ "_file") = get? a.cfg (what ++ "_file") := by
    refine h.other _ ?_ ?_ <;> (clear * - hw; revert what; decide +kernel)
  have e2 : get? b.cfg (what ++ "_data") = get? a.cfg (what ++ "_data") := by
    refine h.other _ ?_ ?_ <;> (clear * - hw; revert what; decide +kernel)
  have e3 : ∀ p, readFile fs b what p = readFile fs a what p := by
    intro p
    simp only [List.mem_cons, List.not_mem_nil, or_false] at hw
    rcases hw with rfl | rfl | rfl | rfl <;> rfl
  unfold InputHandler.getData
  rw [e1, e2]
  simp only [e3]

theorem setDefaults_long {fs : Files F} {cfg cfg' c2 c2' : Dict (CfgVal F)} {ns ne ne' : ℤ}
    (h : ∀ k, k ∉ reqKeys → get? cfg' k = get? cfg k)
    (v1 : get? cfg "rf_volc_file" = none) (v2 : get? cfg "rf_volc_data" = none)
    (e : setDefaults fs cfg ns ne = .ok c2) (e' : setDefaults fs cfg' ns ne' = .ok c2') :
    Long ⟨c2, ns, ne⟩ ⟨c2', ns, ne'⟩ := by
  have w1 : get? cfg' "rf_volc_file" = none := (h _ (by decide)).trans v1
  have w2 : get? cfg' "rf_volc_data" = none := (h _ (by decide)).trans v2
  have hl : ∀ k, k ∉ reqKeys → get? (lucDefault fs cfg') k = get? (lucDefault fs cfg) k := by
    intro k hk
    rw [lucDefault_get, lucDefault_get, h _ (by decide), h _ (by decide), h k hk]
  have hs : ∀ k, k ∉ reqKeys → get? (sunDefault fs (lucDefault fs cfg')) k = get? (sunDefault fs (lucDefault fs cfg)) k := by
    intro k hk
    rw [sunDefault_get, sunDefault_get, hl _ (by decide), hl _ (by decide), hl k hk]
  have nv : ∀ c : Dict (CfgVal F), get? c "rf_volc_file" = none → get? c "rf_volc_data" = none →
      get? (sunDefault fs (lucDefault fs c)) "rf_volc_file" = none ∧
      get? (sunDefault fs (lucDefault fs c)) "rf_volc_data" = none := by
    intro c a b
    constructor
    · rw [sunDefault_get, if_neg (fun e => absurd e.1 (by decide)), lucDefault_get, if_neg (fun e => absurd e.1 (by decide)), a]
    · rw [sunDefault_get, if_neg (fun e => absurd e.1 (by decide)), lucDefault_get, if_neg (fun e => absurd e.1 (by decide)), b]
  unfold setDefaults at e e'
  simp only at e e'
  have eon : sunvolcOn (lucDefault fs cfg') = sunvolcOn (lucDefault fs cfg) := by
    unfold sunvolcOn
    rw [hl _ (by decide)]
  rw [eon] at e'
  by_cases hon : sunvolcOn (lucDefault fs cfg) = true
  · rw [if_pos hon, Except.ok.injEq] at e e'
    subst e e'
    have hv : ∀ k, k ∉ reqKeys → get? (volcDefault fs (sunDefault fs (lucDefault fs cfg'))) k =
        get? (volcDefault fs (sunDefault fs (lucDefault fs cfg))) k := by
      intro k hk
      have V := volcDefault_get fs (nv cfg v1 v2).1 (nv cfg v1 v2).2 k
      have V' := volcDefault_get fs (nv cfg' w1 w2).1 (nv cfg' w1 w2).2 k
      have hno : NoVolc (sunDefault fs (lucDefault fs cfg')) ↔ NoVolc (sunDefault fs (lucDefault fs cfg)) := by
        unfold NoVolc
        constructor
        · intro hh x hx; rw [← hs x (by clear * - hx; revert x; decide)]; exact hh x hx
        · intro hh x hx; rw [hs x (by clear * - hx; revert x; decide)]; exact hh x hx
      by_cases hc : NoVolc (sunDefault fs (lucDefault fs cfg)) ∧ (k = "rf_volc_n_file" ∨ k = "rf_volc_s_file")
      · rw [V.1 hc, V'.1 ⟨hno.2 hc.1, hc.2⟩]
      · rw [V.2 hc, V'.2 (fun hh => hc ⟨hno.1 hh.1, hh.2⟩), hs k hk]
    refine ⟨rfl, fun k hk _ => hv k hk, fun k hk => Or.inl (hv k ?_)⟩
    clear * - hk; revert k; decide
  · rw [if_neg hon] at e e'
    obtain ⟨_, g⟩ := sunVolcZero_get e
    obtain ⟨_, g'⟩ := sunVolcZero_get e'
    refine ⟨rfl, ?_, ?_⟩
    · intro k hk hf
      simp only
      rw [g, g', hl k hk]
      have n1 : k ≠ "rf_sun_data" := by rintro rfl; exact hf (by decide)
      have n2 : ¬ (k = "rf_volc_n_data" ∨ k = "rf_volc_s_data") := by
        rintro (rfl | rfl) <;> exact hf (by decide)
      rw [if_neg n1, if_neg n1, if_neg n2, if_neg n2]
    · intro k hk
      simp only
      rw [g, g']
      by_cases e1 : k = "rf_sun_data"
      · rw [if_pos e1, if_pos e1]
        exact Or.inr (Or.inl ⟨_, rfl, rfl⟩)
      · rw [if_neg e1, if_neg e1]
        by_cases e2 : k = "rf_volc_n_data" ∨ k = "rf_volc_s_data"
        · rw [if_pos e2, if_pos e2]
          exact Or.inr (Or.inl ⟨_, rfl, rfl⟩)
        · rw [if_neg e2, if_neg e2, hl k (by clear * - hk; revert k; decide)]
          exact Or.inl rfl

theorem flatNatural_long {fs : Files F} {a b : Handler F} (h : Long a b) {comp : String} {x x' : Data F}
    (e : flatNatural fs a comp = .ok x) (e' : flatNatural fs b comp = .ok x') :
    ∃ v : F, x = .table ⟨[comp], pyRange a.nystart (a.nyend + 1), fun _ _ => v⟩ ∧
      x' = .table ⟨[comp], pyRange a.nystart (b.nyend + 1), fun _ _ => v⟩ := by
  unfold flatNatural at e e'
  rw [bind_eq_ok] at e e'
  obtain ⟨d, hd, e⟩ := e
  obtain ⟨d', hd', e'⟩ := e'
  rw [h.getData (by simp), hd, Except.ok.injEq] at hd'
  subst hd'
  cases d with
  | gases t =>
    simp only [bind_eq_ok] at e e'
    obtain ⟨g, hg, e⟩ := e
    obtain ⟨g', hg', e'⟩ := e'
    rw [hg, Except.ok.injEq] at hg'
    subst hg'
    rw [pure_ok, Except.ok.injEq] at e e'
    rw [h.start] at e'
    exact ⟨_, e.symm, e'.symm⟩
  | _ => cases e

theorem naturalDefault_long {fs : Files F} {a b a1 b1 : Handler F} (h : Long a b) {k : String × String}
    (hk : k ∈ [("nat_ch4", "CH4"), ("nat_n2o", "N2O")])
    (e : naturalDefault fs a k = .ok a1) (e' : naturalDefault fs b k = .ok b1) :
    Long a1 b1 ∧ a1.nystart = a.nystart ∧ a1.nyend = a.nyend ∧ b1.nyend = b.nyend := by
  have n1 : k.1 ++ "_file" ∉ reqKeys ∧ k.1 ++ "_data" ∉ reqKeys ∧ k.1 ++ "_data" ∈ freshKeys := by
    clear * - hk; revert k; decide +kernel
  unfold naturalDefault at e e'
  rw [h.optional n1.1 n1.2.1, h.optional (what := "gaspam") (by decide) (by decide)] at e'
  by_cases hc : (!optionalPam a k.1 && optionalPam a "gaspam") = true
  · rw [if_pos hc, bind_eq_ok] at e e'
    obtain ⟨x, hx, e⟩ := e
    obtain ⟨x', hx', e'⟩ := e'
    obtain ⟨v, rfl, rfl⟩ := flatNatural_long h hx hx'
    rw [pure_ok, Except.ok.injEq] at e e'
    subst e e'
    refine ⟨⟨h.start, ?_, ?_⟩, rfl, rfl, rfl⟩
    · intro x hx hf
      simp only
      have : k.1 ++ "_data" ≠ x := by rintro rfl; exact hf n1.2.2
      rw [get?_set, get?_set, if_neg this, if_neg this, h.other x hx hf]
    · intro x hx
      simp only
      rw [get?_set, get?_set]
      by_cases hh : k.1 ++ "_data" = x
      · rw [if_pos hh, if_pos hh]
        exact Or.inr (Or.inr ⟨_, _, rfl, rfl⟩)
      · rw [if_neg hh, if_neg hh]
        exact h.fresh x hx
  · rw [if_neg hc, Except.ok.injEq] at e e'
    subst e e'
    exact ⟨h, rfl, rfl, rfl⟩

/-- What two configurations that differ in the last year only become. -/
theorem create_long {fs : Files F} {u u' : Dict (CfgVal F)} {ih ih' : Handler F} (w : WF u) (w' : WF u')
    (h : ∀ k, k ∉ reqKeys → get? u' k = get? u k) (hs : ih'.nystart = ih.nystart)
    (e : create fs u = .ok ih) (e' : create fs u' = .ok ih') : Long ih ih' := by
  obtain ⟨S⟩ := create_stages e
  obtain ⟨S'⟩ := create_stages e'
  have hr : ∀ k, k ∉ reqKeys → k ∉ Dict.keys (requiredCfg (F := F)) := by
    intro k hk hh
    have e : Dict.keys (requiredCfg (F := F)) = ["nystart", "nyend", "emstart", "carbon_cycle_model", "thermal_model"] := rfl
    rw [e] at hh
    refine hk ?_
    clear * - hh; revert k; decide
  have hcut : ∀ k, k ∉ reqKeys → get? (cutAndCheckCfg requiredCfg u' usedCfg) k =
      get? (cutAndCheckCfg requiredCfg u usedCfg) k := by
    intro k hk
    by_cases hu : k ∈ Dict.keys (usedCfg (F := F))
    · rw [get?_cutAndCheckCfg w' (hr k hk) hu, get?_cutAndCheckCfg w (hr k hk) hu, h k hk]
    · rw [get?_cutAndCheckCfg_none (hr k hk) hu, get?_cutAndCheckCfg_none (hr k hk) hu]
  have d' := S'.defaults
  rw [hs] at d'
  have L := setDefaults_long hcut (cut_volc u).1 (cut_volc u).2 S.defaults d'
  have N := S.natural
  have N' := S'.natural
  rw [hs] at N'
  obtain ⟨m, m1, m2⟩ := natural_turns N
  obtain ⟨m', m1', m2'⟩ := natural_turns N'
  obtain ⟨L1, s1, s2, s3⟩ := naturalDefault_long L (by simp) m1 m1'
  obtain ⟨L2, t1, t2, t3⟩ := naturalDefault_long L1 (by simp) m2 m2'
  refine ⟨hs, ?_, ?_⟩
  · intro k hk hf
    have F1 := files_get S.files k
    have F2 := files_get S'.files k
    have hh := L2.other k hk hf
    cases hv : get? S.ih1.cfg k with
    | none =>
      rw [F1.1 hv, F2.1 (hh.trans hv)]
    | some v =>
      obtain ⟨v1, c1, g1⟩ := F1.2 v hv
      obtain ⟨v2, c2, g2⟩ := F2.2 v (hh.trans hv)
      rw [c1, Except.ok.injEq, Prod.mk.injEq] at c2
      rw [g1, g2, c2.2]
  · intro k hk
    have key : ∀ {p q : Dict (CfgVal F)}, p.mapM (checkFile fs) = .ok q → get? q k = get? p k := by
      intro p q hpq
      have F1 := files_get hpq k
      cases hv : get? p k with
      | none => exact F1.1 hv
      | some v =>
        obtain ⟨v1, c1, g1⟩ := F1.2 v hv
        rw [g1, checkFile_other (by clear * - hk; revert k; decide +kernel) c1]
    have hf := L2.fresh k hk
    rw [key S.files, key S'.files]
    rw [t1, s1, t2, s2, t3, s3] at hf
    exact hf

/-! ## What is read -/

/-- Series with a row per year. -/
theorem Long.rows {fs : Files F} {a b : Handler F} (h : Long a b) (hle : a.nyend ≤ b.nyend) {what : String}
    (hw : what ∈ ["rf_luc", "rf_sun", "rf_volc_n", "rf_volc_s"]) {r r' : List (List F)}
    (e : InputHandler.getData fs a what = .ok (.rows r)) (e' : InputHandler.getData fs b what = .ok (.rows r')) :
    RowsUpTo a.nystart a.nyend r r' := by
  have k1 : what ++ "_file" ∉ reqKeys ∧ what ++ "_file" ∉ freshKeys ∧ what ++ "_data" ∉ reqKeys := by
    clear * - hw; revert what; decide +kernel
  have hrm : what ∈ readMethods := by clear * - hw; revert what; decide +kernel
  have e1 := h.other _ k1.1 k1.2.1
  unfold InputHandler.getData at e e'
  rw [e1] at e'
  cases hf : get? a.cfg (what ++ "_file") with
  | some v =>
    rw [hf] at e e'
    simp only [if_neg (fun hh => hh hrm : ¬ (what ∉ readMethods)), bind_eq_ok] at e e'
    obtain ⟨p, hp, e⟩ := e
    obtain ⟨p', hp', e'⟩ := e'
    rw [hp, Except.ok.injEq] at hp'
    subst hp'
    have hrd : ∀ i : Handler F, readFile fs i what p =
        (do return .rows (← readYearRows (← fs.years p) i.nystart i.nyend)) := by
      intro i
      simp only [List.mem_cons, List.not_mem_nil, or_false] at hw
      rcases hw with rfl | rfl | rfl | rfl <;> rfl
    rw [hrd] at e e'
    simp only [bind_eq_ok, pure_ok, Except.ok.injEq, Data.rows.injEq] at e e'
    obtain ⟨l, hl, x, hx, rfl⟩ := e
    obtain ⟨l', hl', x', hx', rfl⟩ := e'
    rw [hl, Except.ok.injEq] at hl'
    subst hl'
    rw [h.start] at hx'
    unfold readYearRows at hx hx'
    simp only at hx hx'
    have inner : ∀ (q : List (List F)), x = q.take (pyRange a.nystart (a.nyend + 1)).length →
        x' = q.take (pyRange a.nystart (b.nyend + 1)).length → RowsUpTo a.nystart a.nyend x x' := by
      rintro q rfl rfl n hn
      have l1 : n < (pyRange a.nystart (a.nyend + 1)).length := by rw [pyRange_length]; omega
      have l2 : n < (pyRange a.nystart (b.nyend + 1)).length := by rw [pyRange_length]; omega
      rw [List.getElem?_take, List.getElem?_take, if_pos l1, if_pos l2]
    have un : ∀ {c : Prop} [Decidable c] {y z : List (List F)},
        (if c then Except.ok y else Except.error PyErr.valueError) = .ok z → z = y := by
      intro c _ y z h
      split at h
      · rw [Except.ok.injEq] at h; exact h.symm
      · cases h
    have u1 := un hx
    have u2 := un hx'
    by_cases hc : 1750 < a.nystart
    · rw [if_pos hc] at u1 u2
      exact inner _ u1 u2
    · rw [if_neg hc] at u1 u2
      exact inner _ u1 u2
  | none =>
    rw [hf] at e e'
    simp only at e e'
    have fl : FreshLong a.nystart a.nyend b.nyend (get? a.cfg (what ++ "_data")) (get? b.cfg (what ++ "_data")) := by
      by_cases hk : what ++ "_data" ∈ freshKeys
      · exact h.fresh _ hk
      · exact Or.inl (h.other _ k1.2.2 hk)
    rcases fl with fl | ⟨row, f1, f2⟩ | ⟨c, x, f1, f2⟩
    · rw [fl] at e'
      rw [e, Except.ok.injEq, Data.rows.injEq] at e'
      subst e'
      exact fun _ _ => rfl
    · rw [f1] at e
      rw [f2] at e'
      simp only [Except.ok.injEq, Data.rows.injEq] at e e'
      subst e e'
      intro n hn
      rw [List.getElem?_replicate, List.getElem?_replicate, if_pos (by omega), if_pos (by omega)]
    · rw [f1] at e
      simp only [Except.ok.injEq] at e
      cases e

/-- Natural emissions. -/
theorem Long.natural {fs : Files F} {a b : Handler F} (h : Long a b) (hle : a.nyend ≤ b.nyend) {what : String}
    (hw : what ∈ ["nat_ch4", "nat_n2o"]) {t t' : Frame F}
    (e : InputHandler.getData fs a what = .ok (.table t)) (e' : InputHandler.getData fs b what = .ok (.table t')) :
    FrameUpTo (fun _ z => z ≤ a.nyend) t t' := by
  have k1 : what ++ "_file" ∉ reqKeys ∧ what ++ "_file" ∉ freshKeys ∧ what ++ "_data" ∈ freshKeys := by
    clear * - hw; revert what; decide +kernel
  have e1 := h.other _ k1.1 k1.2.1
  have same : ∀ t : Frame F, FrameUpTo (fun _ z => z ≤ a.nyend) t t :=
    fun t => ⟨rfl, fun _ _ _ => Iff.rfl, fun _ _ _ _ _ => rfl⟩
  unfold InputHandler.getData at e e'
  rw [e1] at e'
  cases hf : get? a.cfg (what ++ "_file") with
  | some v =>
    rw [hf] at e e'
    have hrd : ∀ p, readFile fs b what p = readFile fs a what p := by
      intro p
      simp only [List.mem_cons, List.not_mem_nil, or_false] at hw
      rcases hw with rfl | rfl <;> rfl
    simp only [hrd] at e'
    simp only at e
    rw [e, Except.ok.injEq, Data.table.injEq] at e'
    subst e'
    exact same _
  | none =>
    rw [hf] at e e'
    simp only at e e'
    rcases h.fresh _ k1.2.2 with fl | ⟨row, f1, f2⟩ | ⟨c, x, f1, f2⟩
    · rw [fl] at e'
      rw [e, Except.ok.injEq, Data.table.injEq] at e'
      subst e'
      exact same _
    · rw [f1] at e
      simp only [Except.ok.injEq] at e
      cases e
    · rw [f1] at e
      rw [f2] at e'
      simp only [Except.ok.injEq, Data.table.injEq] at e e'
      subst e e'
      refine ⟨rfl, ?_, fun _ _ _ _ _ => rfl⟩
      intro _ z hz
      simp only [mem_pyRange]
      omega

/-- Cutting a table with consecutive years. -/
theorem cutYears_long {t u u' : Frame F} {i j ns ne ne' : ℤ} (hi : t.idx = pyRange i j) (h1 : i ≤ ns) (h2 : ne' < j)
    (hle : ns ≤ ne) (hle' : ne ≤ ne') (e : cutYears t ns ne = .ok u) (e' : cutYears t ns ne' = .ok u')
    {E : String → ℤ → Prop} (hE : ∀ c z, E c z → z ≤ ne) :
    FrameUpTo E u u' ∧ u.idx = pyRange ns (ne + 1) ∧ u'.idx = pyRange ns (ne' + 1) := by
  have key : ∀ {m : ℤ} {v : Frame F}, ns ≤ m → m ≤ ne' → cutYears t ns m = .ok v → v = { t with idx := pyRange ns (m + 1) } := by
    intro m v hm hm' e
    unfold cutYears at e
    split at e
    · rename_i a b ha hb
      simp only at e
      split at e
      · rw [Except.ok.injEq] at e
        subst e
        have ha' : a = i := by
          rw [hi, pyRange_cons (by omega)] at ha
          simpa using ha.symm
        have hb' : b = j - 1 := by
          have hlt : i < j := by omega
          rw [hi, List.getLast?_eq_getElem?, pyRange_length] at hb
          unfold pyRange at hb
          rw [List.getElem?_map, List.getElem?_range (by omega)] at hb
          simp only [Option.map_some, Option.some.injEq] at hb
          omega
        subst ha' hb'
        congr 1
        rw [hi]
        have hsplit : pyRange a j = pyRange a ns ++ (pyRange ns (m + 1) ++ pyRange (m + 1) j) := by
          rw [pyRange_append (by omega) (by omega), pyRange_append (by omega) (by omega)]
        rw [hsplit, List.filter_append, List.filter_append]
        have f1 : (pyRange a ns).filter (fun y => decide (y ∉ pyRange a ns ++ pyRange (m + 1) (j - 1 + 1))) = [] := by
          rw [List.filter_eq_nil_iff]
          intro y hy
          simp [hy]
        have f2 : (pyRange ns (m + 1)).filter (fun y => decide (y ∉ pyRange a ns ++ pyRange (m + 1) (j - 1 + 1))) =
            pyRange ns (m + 1) := by
          rw [List.filter_eq_self]
          intro y hy
          rw [mem_pyRange] at hy
          simp only [List.mem_append, mem_pyRange, decide_eq_true_eq]
          omega
        have f3 : (pyRange (m + 1) j).filter (fun y => decide (y ∉ pyRange a ns ++ pyRange (m + 1) (j - 1 + 1))) = [] := by
          rw [List.filter_eq_nil_iff]
          intro y hy
          rw [mem_pyRange] at hy
          simp only [List.mem_append, mem_pyRange, decide_eq_true_eq]
          omega
        rw [f1, f2, f3]
        simp
      · cases e
    · cases e
  have k1 := key hle hle' e
  have k2 := key (by omega) (le_refl _) e'
  subst k1 k2
  refine ⟨⟨rfl, ?_, fun _ _ _ _ _ => rfl⟩, rfl, rfl⟩
  intro c z hz
  have := hE c z hz
  simp only [mem_pyRange]
  omega

end
end Verif.Model.InputHandler
