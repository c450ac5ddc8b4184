import Verif.Model.InputHandler
import Verif.Lemmas.Dict
import Verif.Lemmas.Except
import Verif.Lemmas.Frame

/-! # Facts about the input handler -/

namespace Verif.Model.InputHandler
open Verif.Py Verif.Py.Dict Verif.Model

section
variable {F : Type}

theorem get?_numCfg_step (d : Dict (CfgVal F)) (p : String × CfgVal F) {k : String} (h : p.1 ≠ k) :
    Dict.get? (match d.get? p.1 with
      | none => d.set p.1 p.2
      | some v => if !v.isNum then d.set p.1 p.2 else d) k = Dict.get? d k := by
  split
  · rw [get?_set, if_neg h]
  · split
    · rw [get?_set, if_neg h]
    · rfl

/-- Keys without default are not touched by the numeric check. -/
theorem get?_checkNumericCfg {req d : Dict (CfgVal F)} {k : String} (h : k ∉ Dict.keys req) :
    Dict.get? (checkNumericCfg req d) k = Dict.get? d k := by
  unfold checkNumericCfg
  induction req generalizing d with
  | nil => rfl
  | cons p req ih =>
    rw [List.foldl_cons]
    simp only [Dict.keys, List.map_cons, List.mem_cons, not_or] at h
    rw [ih h.2]
    exact get?_numCfg_step d p (fun e => h.1 e.symm)

/-- Keys that are kept keep their value. -/
theorem get?_cutCfg {used d : Dict (CfgVal F)} (hd : WF d) {k : String} (hk : Dict.has used k = true) :
    Dict.get? (d.foldl (fun new p => if used.has p.1 then new.set p.1 p.2 else new) []) k = Dict.get? d k := by
  have key : ∀ (l acc : Dict (CfgVal F)), WF l → (∀ x ∈ Dict.keys l, x ∉ Dict.keys acc) →
      Dict.get? (l.foldl (fun new p => if used.has p.1 then new.set p.1 p.2 else new) acc) k =
        (Dict.get? l k).or (Dict.get? acc k) := by
    intro l
    induction l with
    | nil => intro acc _ _; rfl
    | cons p l ih =>
      obtain ⟨a, v⟩ := p
      intro acc hl hx
      rw [List.foldl_cons]
      obtain ⟨hl1, hl2⟩ := WF_cons.1 hl
      have hx2 : ∀ x ∈ Dict.keys l, x ∉ Dict.keys (Dict.set acc a v) := by
        intro x hxl hxs
        rcases (mem_keys_set _ _ _ _).1 hxs with rfl | hxs
        · exact hl1 hxl
        · exact hx x (List.mem_cons_of_mem _ hxl) hxs
      have hx3 : ∀ x ∈ Dict.keys l, x ∉ Dict.keys acc := fun x h1 => hx x (List.mem_cons_of_mem _ h1)
      simp only
      by_cases hu : used.has a = true
      · rw [if_pos hu, ih _ hl2 hx2, get?_set, get?_cons]
        by_cases e : a = k
        · subst e
          rw [if_pos rfl, if_pos rfl, (get?_eq_none_iff _ _).2 hl1]
          rfl
        · rw [if_neg e, if_neg e]
      · rw [if_neg hu, ih _ hl2 hx3, get?_cons]
        by_cases e : a = k
        · subst e; exact absurd hk hu
        · rw [if_neg e]
  rw [key d [] hd (by intro x _ h; cases h)]
  rw [get?_nil, Option.or_none]

/-- A kept key without default has the user's value in the checked configuration. -/
theorem get?_cutAndCheckCfg {req d used : Dict (CfgVal F)} (hd : WF d) {k : String} (hr : k ∉ Dict.keys req)
    (hu : k ∈ Dict.keys used) : Dict.get? (cutAndCheckCfg req d used) k = Dict.get? d k := by
  unfold cutAndCheckCfg
  rw [get?_checkNumericCfg hr, get?_cutCfg hd]
  rw [has_iff, mem_keys_update]
  exact Or.inl hu

/-- Keys that are neither used nor required are dropped. -/
theorem get?_cutAndCheckCfg_none {req d used : Dict (CfgVal F)} {k : String} (hr : k ∉ Dict.keys req)
    (hu : k ∉ Dict.keys used) : Dict.get? (cutAndCheckCfg req d used) k = none := by
  unfold cutAndCheckCfg
  rw [get?_checkNumericCfg hr]
  have hn : ¬ (Dict.has (Dict.update used req) k = true) := by
    rw [has_iff, mem_keys_update]; rintro (h | h)
    · exact hu h
    · exact hr h
  have key : ∀ (l acc : Dict (CfgVal F)), Dict.get? acc k = none →
      Dict.get? (l.foldl (fun new p => if (Dict.update used req).has p.1 then new.set p.1 p.2 else new) acc) k = none := by
    intro l
    induction l with
    | nil => exact fun _ h => h
    | cons p l ih =>
      intro acc h
      rw [List.foldl_cons]
      apply ih
      split
      · rename_i hp
        rw [get?_set, if_neg, h]
        intro e; subst e; exact hn hp
      · exact h
  exact key d [] rfl

/-- A loop over the entries that keeps the keys. -/
theorem get?_mapM {V : Type} {f : String × V → Except PyErr (String × V)}
    (hf : ∀ kv r, f kv = .ok r → r.1 = kv.1) {d d' : Dict V} (h : d.mapM f = .ok d') (k : String) :
    match Dict.get? d k with
    | none => Dict.get? d' k = none
    | some v => ∃ v', f (k, v) = .ok (k, v') ∧ Dict.get? d' k = some v' := by
  induction d generalizing d' with
  | nil =>
    rw [List.mapM_nil, pure_ok, Except.ok.injEq] at h
    subst h
    rfl
  | cons p d ih =>
    obtain ⟨a, v⟩ := p
    rw [List.mapM_cons] at h
    simp only [bind_eq_ok, pure_ok, Except.ok.injEq] at h
    obtain ⟨r, hr, rs, hrs, rfl⟩ := h
    obtain ⟨b, w⟩ := r
    have hb : b = a := hf _ _ hr
    subst hb
    rw [get?_cons]
    by_cases e : b = k
    · subst e
      rw [if_pos rfl]
      exact ⟨w, hr, by rw [get?_cons, if_pos rfl]⟩
    · rw [if_neg e, get?_cons, if_neg e]
      exact ih hrs
end

section
variable {F : Type} [Add F] [Sub F] [Mul F] [Div F] [Neg F] [OfScientific F] [LT F] [DecidableLT F] [MathFn F]

/-- The keys `set_sun_volc_luc_defaults` may set. -/
def defaultFiles : List String := ["rf_luc_file", "rf_sun_file", "rf_volc_n_file", "rf_volc_s_file"]
def defaultData : List String := ["rf_volc_n_data", "rf_volc_s_data", "rf_sun_data"]

omit [Add F] [Sub F] [Mul F] [Div F] [Neg F] [OfScientific F] [LT F] [DecidableLT F] [MathFn F] in
theorem has_false_iff {d : Dict (CfgVal F)} {k : String} : (!Dict.has d k) = true ↔ Dict.get? d k = none := by
  unfold Dict.has
  cases Dict.get? d k <;> simp

omit [Add F] [Sub F] [Mul F] [Div F] [Neg F] [OfScientific F] [LT F] [DecidableLT F] [MathFn F] in
theorem lucDefault_get (fs : Files F) (cfg : Dict (CfgVal F)) (k : String) :
    Dict.get? (lucDefault fs cfg) k = if k = "rf_luc_file" ∧ Dict.get? cfg "rf_luc_file" = none ∧
      Dict.get? cfg "rf_luc_data" = none then some (.val (.str (fs.defaultDir ++ "/IPCC_LUCalbedo.txt")))
      else Dict.get? cfg k := by
  unfold lucDefault
  by_cases h : Dict.get? cfg "rf_luc_file" = none ∧ Dict.get? cfg "rf_luc_data" = none
  · rw [if_pos (by rw [Bool.and_eq_true, has_false_iff, has_false_iff]; exact h), get?_set]
    by_cases e : "rf_luc_file" = k
    · rw [if_pos e, if_pos ⟨e.symm, h⟩]
    · rw [if_neg e, if_neg (fun hh => e hh.1.symm)]
  · rw [if_neg (by rw [Bool.and_eq_true, has_false_iff, has_false_iff]; exact h), if_neg (fun hh => h hh.2)]

omit [Add F] [Sub F] [Mul F] [Div F] [Neg F] [OfScientific F] [LT F] [DecidableLT F] [MathFn F] in
theorem sunDefault_get (fs : Files F) (cfg : Dict (CfgVal F)) (k : String) :
    Dict.get? (sunDefault fs cfg) k = if k = "rf_sun_file" ∧ Dict.get? cfg "rf_sun_file" = none ∧
      Dict.get? cfg "rf_sun_data" = none then some (.val (.str (fs.defaultDir ++ "/solar_IPCC.txt")))
      else Dict.get? cfg k := by
  unfold sunDefault
  by_cases h : Dict.get? cfg "rf_sun_file" = none ∧ Dict.get? cfg "rf_sun_data" = none
  · rw [if_pos (by rw [Bool.and_eq_true, has_false_iff, has_false_iff]; exact h), get?_set]
    by_cases e : "rf_sun_file" = k
    · rw [if_pos e, if_pos ⟨e.symm, h⟩]
    · rw [if_neg e, if_neg (fun hh => e hh.1.symm)]
  · rw [if_neg (by rw [Bool.and_eq_true, has_false_iff, has_false_iff]; exact h), if_neg (fun hh => h hh.2)]

/-- No volcanic option is given. -/
def NoVolc (cfg : Dict (CfgVal F)) : Prop :=
  ∀ k ∈ ["rf_volc_n_file", "rf_volc_s_file", "rf_volc_n_data", "rf_volc_s_data"], Dict.get? cfg k = none

omit [Add F] [Sub F] [Mul F] [Div F] [Neg F] [OfScientific F] [LT F] [DecidableLT F] [MathFn F] in
theorem volcDefault_get (fs : Files F) {cfg : Dict (CfgVal F)} (h1 : Dict.get? cfg "rf_volc_file" = none)
    (h2 : Dict.get? cfg "rf_volc_data" = none) (k : String) :
    (NoVolc cfg ∧ (k = "rf_volc_n_file" ∨ k = "rf_volc_s_file") → Dict.get? (volcDefault fs cfg) k =
      some (.val (.str (fs.defaultDir ++ "/meanVOLCmnd_ipcc_NH.txt")))) ∧
    (¬ (NoVolc cfg ∧ (k = "rf_volc_n_file" ∨ k = "rf_volc_s_file")) →
      Dict.get? (volcDefault fs cfg) k = Dict.get? cfg k) := by
  unfold volcDefault
  have e1 : Dict.has cfg "rf_volc_file" = false := by unfold Dict.has; rw [h1]; rfl
  have e2 : Dict.has cfg "rf_volc_data" = false := by unfold Dict.has; rw [h2]; rfl
  have hno : (!["rf_volc_file", "rf_volc_data", "rf_volc_n_file", "rf_volc_s_file", "rf_volc_n_data",
       "rf_volc_s_data"].any (fun k => cfg.has k)) = true ↔ NoVolc cfg := by
    unfold NoVolc
    simp only [List.any_cons, List.any_nil, e1, e2, Bool.false_or, Bool.or_false, Bool.not_or, Bool.and_eq_true,
      has_false_iff, List.mem_cons, List.not_mem_nil, or_false, forall_eq_or_imp, forall_eq]
  by_cases h : NoVolc cfg
  · rw [if_pos (hno.2 h)]
    simp only
    rw [get?_set, get?_set]
    constructor
    · rintro ⟨-, rfl | rfl⟩
      · rw [if_neg (by decide), if_pos rfl]
      · rw [if_pos rfl]
    · intro hh
      rw [if_neg (fun e => hh ⟨h, Or.inr e.symm⟩), if_neg (fun e => hh ⟨h, Or.inl e.symm⟩)]
  · rw [if_neg (fun hh => h (hno.1 hh)), e1, e2]
    exact ⟨fun hh => absurd hh.1 h, fun _ => rfl⟩

omit [Add F] [Sub F] [Mul F] [Div F] [Neg F] [LT F] [DecidableLT F] [MathFn F] in
theorem sunVolcZero_get {cfg cfg' : Dict (CfgVal F)} {ns ne : ℤ} (h : sunVolcZero cfg ns ne = .ok cfg') :
    0 ≤ ne - ns + 1 ∧ ∀ k, Dict.get? cfg' k =
      if k = "rf_sun_data" then some (.data (.rows (List.replicate (ne - ns + 1).toNat [0.0])))
      else if k = "rf_volc_n_data" ∨ k = "rf_volc_s_data" then
        some (.data (.rows (List.replicate (ne - ns + 1).toNat (List.replicate 12 0.0))))
      else Dict.get? cfg k := by
  unfold sunVolcZero at h
  simp only at h
  split at h
  · cases h
  · rw [Except.ok.injEq] at h
    subst h
    refine ⟨by omega, ?_⟩
    intro k
    rw [get?_set, get?_set, get?_set]
    by_cases e1 : k = "rf_sun_data"
    · subst e1; simp
    · by_cases e2 : k = "rf_volc_s_data"
      · subst e2; simp
      · by_cases e3 : k = "rf_volc_n_data"
        · subst e3; simp
        · simp [e1, e2, e3, Ne.symm e1, Ne.symm e2, Ne.symm e3]

theorem sunvolc_luc (fs : Files F) (cfg : Dict (CfgVal F)) : sunvolcOn (lucDefault fs cfg) = sunvolcOn cfg := by
  unfold sunvolcOn
  rw [lucDefault_get, if_neg (fun e => absurd e.1 (by decide))]

/-- Keys the defaults do not touch. -/
theorem setDefaults_other {fs : Files F} {cfg cfg' : Dict (CfgVal F)} {ns ne : ℤ}
    (h1 : Dict.get? cfg "rf_volc_file" = none) (h2 : Dict.get? cfg "rf_volc_data" = none)
    (h : setDefaults fs cfg ns ne = .ok cfg') {k : String} (hf : k ∉ defaultFiles) (hd : k ∉ defaultData) :
    Dict.get? cfg' k = Dict.get? cfg k := by
  unfold defaultFiles at hf
  unfold defaultData at hd
  simp only [List.mem_cons, List.not_mem_nil, or_false, not_or] at hf hd
  unfold setDefaults at h
  simp only at h
  split at h
  · rw [Except.ok.injEq] at h
    subst h
    have g : ∀ k, k ≠ "rf_luc_file" → k ≠ "rf_sun_file" → Dict.get? (sunDefault fs (lucDefault fs cfg)) k = Dict.get? cfg k := by
      intro k e1 e2
      rw [sunDefault_get, if_neg (fun e => e2 e.1), lucDefault_get, if_neg (fun e => e1 e.1)]
    rw [(volcDefault_get fs (by rw [g _ (by decide) (by decide)]; exact h1) (by rw [g _ (by decide) (by decide)]; exact h2) k).2
      (by rintro ⟨-, e | e⟩; exacts [hf.2.2.1 e, hf.2.2.2 e]), g k hf.1 hf.2.1]
  · rw [(sunVolcZero_get h).2, if_neg hd.2.2, if_neg (by rintro (e | e); exacts [hd.1 e, hd.2.1 e]), lucDefault_get,
      if_neg (fun e => hf.1 e.1)]

/-- A configured file is kept. -/
theorem setDefaults_file {fs : Files F} {cfg cfg' : Dict (CfgVal F)} {ns ne : ℤ}
    (h1 : Dict.get? cfg "rf_volc_file" = none) (h2 : Dict.get? cfg "rf_volc_data" = none)
    (h : setDefaults fs cfg ns ne = .ok cfg') {k : String} (hf : k ∈ defaultFiles) {v : CfgVal F}
    (hv : Dict.get? cfg k = some v) : Dict.get? cfg' k = some v := by
  have hl : Dict.get? (lucDefault fs cfg) k = some v := by
    rw [lucDefault_get, if_neg, hv]
    rintro ⟨rfl, e, -⟩; rw [hv] at e; cases e
  have hs : Dict.get? (sunDefault fs (lucDefault fs cfg)) k = some v := by
    rw [sunDefault_get, if_neg, hl]
    rintro ⟨rfl, e, -⟩; rw [hl] at e; cases e
  unfold setDefaults at h
  simp only at h
  split at h
  · rw [Except.ok.injEq] at h
    subst h
    have g : ∀ k, k ≠ "rf_luc_file" → k ≠ "rf_sun_file" → Dict.get? (sunDefault fs (lucDefault fs cfg)) k = Dict.get? cfg k := by
      intro k e1 e2
      rw [sunDefault_get, if_neg (fun e => e2 e.1), lucDefault_get, if_neg (fun e => e1 e.1)]
    rw [(volcDefault_get fs (by rw [g _ (by decide) (by decide)]; exact h1) (by rw [g _ (by decide) (by decide)]; exact h2) k).2, hs]
    rintro ⟨hn, rfl | rfl⟩
    · rw [hn _ (by simp)] at hs; cases hs
    · rw [hn _ (by simp)] at hs; cases hs
  · unfold defaultFiles at hf
    simp only [List.mem_cons, List.not_mem_nil, or_false] at hf
    rw [(sunVolcZero_get h).2]
    rcases hf with rfl | rfl | rfl | rfl <;> rw [if_neg (by decide), if_neg (by decide), hl]

/-- With `sunvolc` on, data are kept. -/
theorem setDefaults_data {fs : Files F} {cfg cfg' : Dict (CfgVal F)} {ns ne : ℤ}
    (h1 : Dict.get? cfg "rf_volc_file" = none) (h2 : Dict.get? cfg "rf_volc_data" = none)
    (h : setDefaults fs cfg ns ne = .ok cfg') (hon : sunvolcOn cfg = true) {k : String} (hf : k ∉ defaultFiles) :
    Dict.get? cfg' k = Dict.get? cfg k := by
  unfold defaultFiles at hf
  simp only [List.mem_cons, List.not_mem_nil, or_false, not_or] at hf
  unfold setDefaults at h
  simp only at h
  rw [sunvolc_luc, if_pos hon, Except.ok.injEq] at h
  subst h
  have g : ∀ k, k ≠ "rf_luc_file" → k ≠ "rf_sun_file" → Dict.get? (sunDefault fs (lucDefault fs cfg)) k = Dict.get? cfg k := by
    intro k e1 e2
    rw [sunDefault_get, if_neg (fun e => e2 e.1), lucDefault_get, if_neg (fun e => e1 e.1)]
  rw [(volcDefault_get fs (by rw [g _ (by decide) (by decide)]; exact h1) (by rw [g _ (by decide) (by decide)]; exact h2) k).2
      (by rintro ⟨-, e | e⟩; exacts [hf.2.2.1 e, hf.2.2.2 e]), g k hf.1 hf.2.1]

/-- With `sunvolc` off, solar and volcanic data are zero. -/
theorem setDefaults_zero {fs : Files F} {cfg cfg' : Dict (CfgVal F)} {ns ne : ℤ}
    (h : setDefaults fs cfg ns ne = .ok cfg') (hoff : sunvolcOn cfg = false) :
    0 ≤ ne - ns + 1 ∧
    Dict.get? cfg' "rf_sun_data" = some (.data (.rows (List.replicate (ne - ns + 1).toNat [0.0]))) ∧
    (∀ k ∈ ["rf_volc_n_data", "rf_volc_s_data"], Dict.get? cfg' k =
      some (.data (.rows (List.replicate (ne - ns + 1).toNat (List.replicate 12 0.0))))) ∧
    (∀ k ∈ ["rf_sun_file", "rf_volc_n_file", "rf_volc_s_file"], Dict.get? cfg' k = Dict.get? cfg k) := by
  unfold setDefaults at h
  simp only at h
  rw [sunvolc_luc, if_neg (by rw [hoff]; decide)] at h
  obtain ⟨hn, h⟩ := sunVolcZero_get h
  refine ⟨hn, ?_, ?_, ?_⟩
  · rw [h, if_pos rfl]
  · intro k hk
    simp only [List.mem_cons, List.not_mem_nil, or_false] at hk
    rcases hk with rfl | rfl <;> rw [h, if_neg (by decide), if_pos (by decide)]
  · intro k hk
    simp only [List.mem_cons, List.not_mem_nil, or_false] at hk
    rcases hk with rfl | rfl | rfl <;> rw [h, if_neg (by decide), if_neg (by decide), lucDefault_get,
      if_neg (fun e => absurd e.1 (by decide))]

/-! ## The whole constructor -/

theorem checkFile_key (fs : Files F) (kv r : String × CfgVal F) (h : checkFile fs kv = .ok r) : r.1 = kv.1 := by
  unfold checkFile at h
  split at h
  · simp only [bind_eq_ok] at h
    obtain ⟨p, _, h⟩ := h
    split at h
    · rw [pure_ok, Except.ok.injEq] at h; rw [← h]
    · split at h
      · cases h
      · rw [pure_ok, Except.ok.injEq] at h; rw [← h]
  · rw [Except.ok.injEq] at h; rw [← h]

theorem naturalDefault_spec {fs : Files F} {ih ih' : Handler F} {k : String × String}
    (h : naturalDefault fs ih k = .ok ih') : ih'.nystart = ih.nystart ∧ ih'.nyend = ih.nyend ∧
      (∀ x, x ≠ k.1 ++ "_data" → Dict.get? ih'.cfg x = Dict.get? ih.cfg x) ∧
      (optionalPam ih k.1 = true → ih' = ih) ∧
      (optionalPam ih k.1 = false → optionalPam ih "gaspam" = true →
        ∃ d, flatNatural fs ih k.2 = .ok d ∧ Dict.get? ih'.cfg (k.1 ++ "_data") = some (.data d)) := by
  unfold naturalDefault at h
  split at h
  · rename_i hc
    rw [Bool.and_eq_true, Bool.not_eq_true'] at hc
    rw [bind_eq_ok] at h
    obtain ⟨d, hd, h⟩ := h
    rw [pure_ok, Except.ok.injEq] at h
    subst h
    refine ⟨rfl, rfl, ?_, ?_, ?_⟩
    · intro x hx
      simp only
      rw [get?_set, if_neg (fun e => hx e.symm)]
    · intro e; rw [hc.1] at e; cases e
    · intro _ _
      exact ⟨d, hd, by simp only; rw [get?_set, if_pos rfl]⟩
  · rename_i hc
    rw [Except.ok.injEq] at h
    subst h
    refine ⟨rfl, rfl, fun _ _ => rfl, fun _ => rfl, ?_⟩
    intro e1 e2
    rw [e1, e2] at hc
    exact absurd rfl hc

end
end Verif.Model.InputHandler
