import Verif.Lemmas.CompleteReset
import Verif.Lemmas.CarbonRerun
import Verif.Model.ThermalInst
import Verif.Props.C27

/-! # The carbon cycles and the two-layer model work on every parameter set -/

namespace Verif.Props
open Verif.Py Verif.Py.Dict Verif.Model Verif.Model.Handler Verif.Model.Driver Verif.Model.CarbonInst Verif.Spec

section
variable {F : Type} [Add F] [Sub F] [Mul F] [Div F] [Neg F] [OfScientific F] [LT F] [DecidableLT F]
  [MathFn F]

/-- The parameters of `ks` are numbers. -/
def Numeric (d : Dict (PyVal F)) (ks : List String) : Prop := ∀ k ∈ ks, ∃ v, d.get? k = some v ∧ v.isNum = true

omit [Add F] [Sub F] [Mul F] [Div F] [Neg F] [OfScientific F] [LT F] [DecidableLT F] in
theorem Numeric.pamF {d : Dict (PyVal F)} {ks : List String} (h : Numeric d ks) {k : String} (hk : k ∈ ks) :
    ∃ x : F, Handler.pamF d k = .ok x := by
  obtain ⟨v, hv, hn⟩ := h k hk
  obtain ⟨x, hx⟩ := toF_of_isNum hn
  unfold Handler.pamF Dict.getE
  rw [hv]
  simp only [bind_ok, hx]
  exact ⟨x, rfl⟩

omit [Add F] [Sub F] [Mul F] [Div F] [Neg F] [OfScientific F] [LT F] [DecidableLT F] [MathFn F] in
theorem numeric_cut {req p used : Dict (PyVal F)} (hr : WF req) (hd : ∀ kv ∈ req, kv.2.isNum = true) :
    Numeric (cutAndCheckPamset req p used) req.keys := by
  intro k hk
  obtain ⟨d, hd'⟩ := (get?_isSome_iff _ _).2 hk
  have hdn : d.isNum = true := hd _ (Dict.mem_of_get? hd')
  unfold cutAndCheckPamset
  rw [get?_checkNumericPamset hr, hd']
  simp only
  split
  · split
    · rename_i hv; exact ⟨_, rfl, hv⟩
    · exact ⟨_, rfl, hdn⟩
  · exact ⟨_, rfl, hdn⟩

omit [Add F] [Sub F] [Mul F] [Div F] [Neg F] [OfScientific F] [LT F] [DecidableLT F] [MathFn F] in
theorem Numeric.set {d : Dict (PyVal F)} {ks : List String} (h : Numeric d ks) (a : String) {v : PyVal F}
    (hv : v.isNum = true ∨ a ∉ ks) : Numeric (Dict.set d a v) ks := by
  intro k hk
  rw [get?_set]
  split
  · rename_i e
    subst e
    exact ⟨v, rfl, hv.resolve_right (fun hh => hh hk)⟩
  · exact h k hk

omit [Add F] [Sub F] [Mul F] [Div F] [Neg F] [OfScientific F] [LT F] [DecidableLT F] [MathFn F] in
theorem Numeric.update {d : Dict (PyVal F)} {ks : List String} (h : Numeric d ks) (new : Option (Dict (PyVal F)))
    (can : List String) : Numeric (updatePamIfNumeric d new can) ks := by
  unfold updatePamIfNumeric
  cases new with
  | none => exact h
  | some new =>
    simp only
    have key : ∀ (l : Dict (PyVal F)) (d : Dict (PyVal F)), Numeric d ks → Numeric (l.foldl (updatePamStep can) d) ks := by
      intro l
      induction l with
      | nil => exact fun d h => h
      | cons a l ih =>
        intro d hd
        rw [List.foldl_cons]
        apply ih
        unfold updatePamStep
        split
        · exact hd
        · split
          · exact hd
          · rename_i hn
            exact hd.set _ (Or.inl (by simpa using hn))
    exact key new d h

/-! ## The box model -/

/-- The box model's parameters are numbers. -/
def BoxFit (k : BoxM F) : Prop := Numeric k.pam (boxRequired (F := F)).keys

theorem box_resets (q : Option (Dict (PyVal F))) : CarbonResets boxOps (BoxFit (F := F)) q := by
  intro k hk
  exact ⟨_, rfl, Numeric.update hk _ _⟩

theorem box_creates (pam q : Dict (PyVal F)) : ∃ k, boxOps.create pam q = .ok k ∧ BoxFit (F := F) k := by
  refine ⟨_, rfl, ?_⟩
  show Numeric (updatePamIfNumeric (cutAndCheckPamset boxRequired q []) (some _) _) _
  refine Numeric.update (numeric_cut (req := boxRequired (F := F)) ?_ ?_) _ _
  · simp [boxRequired, WF, Dict.keys]
  · intro kv hkv
    unfold boxRequired at hkv
    simp only [List.mem_cons, List.not_mem_nil, or_false] at hkv
    rcases hkv with h | h | h | h | h | h | h | h <;> rw [h] <;> rfl

theorem box_works (ns ne : ℤ) : CarbonWorks boxOps (BoxFit (F := F)) ns ne := by
  intro k y em fb _ _ hk
  have hp : ∃ p, boxPams k = .ok p := by
    have h : ∀ x ∈ (boxRequired (F := F)).keys, ∃ v : F, Handler.pamF k.pam x = .ok v := fun x hx => Numeric.pamF hk hx
    simp only [boxRequired, Dict.keys, List.map_cons, List.map_nil] at h
    obtain ⟨v1, h1⟩ := h "beta_f" (by simp)
    obtain ⟨v2, h2⟩ := h "land_temp_sensitivity" (by simp)
    obtain ⟨v3, h3⟩ := h "soil_respiration_rate" (by simp)
    obtain ⟨v4, h4⟩ := h "ocean_mixed_layer_depth" (by simp)
    obtain ⟨v5, h5⟩ := h "ocean_exchange_rate" (by simp)
    obtain ⟨v6, h6⟩ := h "vegetation_to_soil_fraction" (by simp)
    obtain ⟨v7, h7⟩ := h "ocean_solubility_base" (by simp)
    obtain ⟨v8, h8⟩ := h "ocean_solubility_temp_coeff" (by simp)
    unfold boxPams
    rw [h1, bind_ok, h2, bind_ok, h3, bind_ok, h4, bind_ok, h5, bind_ok, h6, bind_ok, h7, bind_ok, h8, bind_ok]
    exact ⟨_, rfl⟩
  obtain ⟨p, hp⟩ := hp
  show ∃ r, boxStep k y em fb = .ok r ∧ BoxFit r.2
  unfold boxStep
  rw [hp, bind_ok]
  exact ⟨_, rfl, hk⟩

/-! ## The impulse response model -/

/-- The default carbon cycle for the run years, with numeric parameters. -/
structure IRFit (ns ne : ℤ) (k : IR F) : Prop where
  num : Numeric k.pam (irRequired (F := F)).keys
  idtm : 0 < k.idtm
  nystart : k.nystart = ns
  years : k.years_tot = ne - ns + 1

theorem ir_works (ns ne : ℤ) : CarbonWorks irOps (IRFit (F := F) ns ne) ns ne := by
  intro k y em fb h1 h2 hk
  have hp : ∃ p, irPams k = .ok p := by
    have h : ∀ x ∈ (irRequired (F := F)).keys, ∃ v : F, Handler.pamF k.pam x = .ok v := fun x hx => Numeric.pamF hk.num hx
    simp only [irRequired, Dict.keys, List.map_cons, List.map_nil] at h
    obtain ⟨v1, h1⟩ := h "beta_f" (by simp)
    obtain ⟨v2, h2⟩ := h "mixed_carbon" (by simp)
    obtain ⟨v3, h3⟩ := h "ml_w_sigmoid" (by simp)
    obtain ⟨v4, h4⟩ := h "ml_fracmax" (by simp)
    obtain ⟨v5, h5⟩ := h "ml_t_half" (by simp)
    obtain ⟨v6, h6⟩ := h "t_half" (by simp)
    obtain ⟨v7, h7⟩ := h "w_sigmoid" (by simp)
    obtain ⟨v8, h8⟩ := h "t_threshold" (by simp)
    obtain ⟨v9, h9⟩ := h "w_threshold" (by simp)
    obtain ⟨v10, h10⟩ := h "solubility_sens" (by simp)
    obtain ⟨v11, h11⟩ := h "solubility_limit" (by simp)
    obtain ⟨v12, h12⟩ := h "ml_depth_min" (by simp)
    obtain ⟨v13, h13⟩ := h "preindustrial_co2_conc" (by simp)
    unfold irPams
    rw [h1, bind_ok, h2, bind_ok, h3, bind_ok, h4, bind_ok, h5, bind_ok, h6, bind_ok, h7, bind_ok, h8, bind_ok,
      h9, bind_ok, h10, bind_ok, h11, bind_ok, h12, bind_ok, h13, bind_ok]
    exact ⟨_, rfl⟩
  obtain ⟨p, hp⟩ := hp
  show ∃ r, irStep k y em fb = .ok r ∧ IRFit ns ne r.2
  have hi := hk.idtm
  have hs := hk.nystart
  have hy := hk.years
  unfold irStep
  rw [hp, bind_ok, if_neg (by omega), if_neg (by omega)]
  exact ⟨_, rfl, hk.num, hk.idtm, hk.nystart, hk.years⟩

/-- A carbon parameter set whose flat response coefficients can be collected, without response functions. -/
def PlainIR (p : Dict (PyVal F)) : Prop :=
  ∃ new, processFlat p = .ok new ∧ new.get? "rs_function" = none ∧ new.get? "rb_function" = none

theorem irNewPam_plain {pam new : Dict (PyVal F)} (h1 : new.get? "rs_function" = none)
    (h2 : new.get? "rb_function" = none) : irNewPam pam new = updatePamIfNumeric pam (some new) (irRequired (F := F)).keys := by
  unfold irNewPam
  simp only [List.foldl_cons, List.foldl_nil, takeFunction, h1, h2]

theorem irUpdate_plain {k : IR F} {p new : Dict (PyVal F)} (e : processFlat p = .ok new)
    (h1 : new.get? "rs_function" = none) (h2 : new.get? "rb_function" = none) :
    irUpdate k p = .ok { k with pam := updatePamIfNumeric k.pam (some new) (irRequired (F := F)).keys } := by
  unfold irUpdate
  rw [e, bind_ok]
  simp only
  rw [irNewPam_plain h1 h2, if_neg]
  unfold Dict.has
  rw [h1, h2]
  simp

theorem resetHold_ok {k : IR F} {x : F} (h : pamF k.pam "preindustrial_co2_conc" = .ok x) (hi : 0 ≤ k.idtm * k.years_tot) :
    ∃ hold, resetHold k = .ok { k with hold := hold } := by
  unfold resetHold
  rw [h, bind_ok, if_neg (by omega)]
  exact ⟨_, rfl⟩

theorem ir_resets {ns ne : ℤ} (hle : ns ≤ ne) (q : Option (Dict (PyVal F))) (hq : ∀ p, q = some p → PlainIR p) :
    CarbonResets irOps (IRFit (F := F) ns ne) q := by
  intro k hk
  show ∃ k', irReset k q = .ok k' ∧ IRFit ns ne k'
  obtain ⟨x, hx⟩ := hk.num.pamF (k := "preindustrial_co2_conc") (by simp [irRequired, Dict.keys])
  obtain ⟨hold, hh⟩ := resetHold_ok hx (by
    have := hk.idtm; have := hk.years
    exact Int.mul_nonneg (by omega) (by omega))
  unfold irReset
  rw [hh, bind_ok]
  cases q with
  | none => exact ⟨_, rfl, hk.num, hk.idtm, hk.nystart, hk.years⟩
  | some p =>
    obtain ⟨new, e, h1, h2⟩ := hq p rfl
    simp only
    rw [irUpdate_plain e h1 h2]
    refine ⟨_, rfl, ?_, hk.idtm, hk.nystart, hk.years⟩
    exact Numeric.update hk.num (some new) _

/-- `processFlat` leaves a parameter set without response coefficients alone. -/
theorem processFlat_plain {p : Dict (PyVal F)} (h : ∀ key ∈ p.keys, ∀ pre ∈ ["rb_coef", "rb_tim", "rs_coef", "rs_tim"],
    ¬ (pre.toList <+: key.toList)) : processFlat p = .ok p := by
  unfold processFlat
  rw [FlatPams.C27_structured_unchanged, bind_ok]
  · rw [mapM_ok, List.map_map]
    rfl
  · intro key hk
    apply h
    unfold Dict.keys at hk ⊢
    rw [List.map_map] at hk
    exact hk

omit [Add F] [Sub F] [Mul F] [Div F] [Neg F] [LT F] [DecidableLT F] [MathFn F] in
theorem irRequired_wf : WF (irRequired (F := F)) := by
  simp [irRequired, WF, Dict.keys]

omit [Add F] [Sub F] [Mul F] [Div F] [Neg F] [LT F] [DecidableLT F] [MathFn F] in
theorem irRequired_num : ∀ kv ∈ irRequired (F := F), kv.2.isNum = true := by
  intro kv hkv
  unfold irRequired at hkv
  simp only [List.mem_cons, List.not_mem_nil, or_false] at hkv
  rcases hkv with h | h | h | h | h | h | h | h | h | h | h | h | h <;> rw [h] <;> rfl

omit [Add F] [Sub F] [Mul F] [Div F] [Neg F] [LT F] [DecidableLT F] [MathFn F] in
/-- The checked carbon parameters of a set without response functions are the required ones. -/
theorem irCut_keys {new : Dict (PyVal F)} (h1 : new.get? "rs_function" = none) (h2 : new.get? "rb_function" = none)
    {k : String} (hk : k ∈ (cutAndCheckPamset irRequired new irUsed).keys) : k ∈ (irRequired (F := F)).keys := by
  obtain ⟨v, hv⟩ := (get?_isSome_iff _ _).2 hk
  unfold cutAndCheckPamset at hv
  rw [get?_checkNumericPamset irRequired_wf] at hv
  cases hr : Dict.get? (irRequired (F := F)) k with
  | some d => exact (get?_isSome_iff _ _).1 ⟨d, hr⟩
  | none =>
    rw [hr] at hv
    simp only at hv
    obtain ⟨e2, e1⟩ := (mem_keys_cut _ _ _).1 ((get?_isSome_iff _ _).1 ⟨v, hv⟩)
    rw [mem_keys_usedKeys] at e2
    rcases e2 with e2 | e2
    · simp only [irUsed, Dict.keys, List.map_cons, List.map_nil, List.mem_cons, List.not_mem_nil, or_false] at e2
      rcases e2 with rfl | rfl
      · exact absurd e1 ((get?_eq_none_iff _ _).1 h1)
      · exact absurd e1 ((get?_eq_none_iff _ _).1 h2)
    · exact e2

theorem ir_first {k0 : IR F} {p : Dict (PyVal F)} {ns ne : ℤ} (hle : ns ≤ ne) (hfit : IRFit ns ne k0) (hp : PlainIR p)
    (h1 : Dict.get? k0.pam "rs_function" = none) (h2 : Dict.get? k0.pam "rb_function" = none) :
    ∃ k, (irReset k0 (some p) >>= fun k => precalcR k) = .ok k ∧ IRFit ns ne k := by
  obtain ⟨k1, hk1, hf1⟩ := ir_resets hle (some p) (fun p' hp' => by
    rw [Option.some.injEq] at hp'; subst hp'; exact hp) k0 hfit
  have hk1' : irReset k0 (some p) = .ok k1 := hk1
  obtain ⟨new, e, g1, g2⟩ := hp
  obtain ⟨-, -, -, -, -, h⟩ := irReset_spec hk1'
  rcases h with ⟨h, -⟩ | ⟨p', new', hp', e', h⟩
  · cases h
  rw [Option.some.injEq] at hp'
  subst hp'
  rw [e, Except.ok.injEq] at e'
  subst e'
  rw [irNewPam_plain g1 g2] at h
  have hkeys : Dict.keys k1.pam = Dict.keys k0.pam := by
    rw [h]; exact keys_updatePam_foldl _ _ _
  have hrs : Dict.get? k1.pam "rs_function" = none := by
    rw [get?_eq_none_iff, hkeys, ← get?_eq_none_iff]; exact h1
  have hrb : Dict.get? k1.pam "rb_function" = none := by
    rw [get?_eq_none_iff, hkeys, ← get?_eq_none_iff]; exact h2
  rw [hk1', bind_ok]
  unfold precalcR rsOf rbOf
  rw [hrs, hrb]
  exact ⟨_, rfl, hf1.num, hf1.idtm, hf1.nystart, hf1.years⟩

omit [Add F] [Sub F] [Mul F] [Div F] [Neg F] [LT F] [DecidableLT F] [MathFn F] in
theorem irCut_missing {new : Dict (PyVal F)} (h1 : new.get? "rs_function" = none) (h2 : new.get? "rb_function" = none) :
    takeOutMissing (cutAndCheckPamset irRequired new irUsed) =
      .ok (cutAndCheckPamset (irRequired (F := F)) new irUsed) := by
  have hnum : Numeric (cutAndCheckPamset irRequired new irUsed) (irRequired (F := F)).keys :=
    numeric_cut irRequired_wf irRequired_num
  have hwf : WF (cutAndCheckPamset (irRequired (F := F)) new irUsed) := by
    unfold cutAndCheckPamset
    exact WF_checkNumericPamset _ _ (WF_cut _ _)
  unfold takeOutMissing
  rw [if_neg]
  rw [List.any_eq_true]
  rintro ⟨kv, hkv, hs⟩
  obtain ⟨v, hv, hvn⟩ := hnum kv.1 (irCut_keys h1 h2 (List.mem_map.2 ⟨kv, hkv, rfl⟩))
  rw [get?_of_mem hwf (v := kv.2) hkv, Option.some.injEq] at hv
  subst hv
  revert hs hvn
  cases kv.2 <;> simp [Factory.isStr, PyVal.isNum]

omit [Add F] [Sub F] [Mul F] [Div F] [Neg F] [LT F] [DecidableLT F] [MathFn F] in
theorem irRequired_keys : (irRequired (F := F)).keys = ["beta_f", "mixed_carbon", "ml_w_sigmoid", "ml_fracmax",
    "ml_t_half", "t_half", "w_sigmoid", "t_threshold", "w_threshold", "solubility_sens", "solubility_limit",
    "ml_depth_min", "preindustrial_co2_conc"] := rfl

theorem no_flat_key : ∀ key ∈ ["beta_f", "mixed_carbon", "ml_w_sigmoid", "ml_fracmax", "ml_t_half", "t_half", "w_sigmoid",
    "t_threshold", "w_threshold", "solubility_sens", "solubility_limit", "ml_depth_min", "preindustrial_co2_conc"],
    ∀ pre ∈ ["rb_coef", "rb_tim", "rs_coef", "rs_tim"], ¬ (pre.toList <+: key.toList) := by decide

omit [Add F] [Sub F] [Mul F] [Div F] [Neg F] [LT F] [DecidableLT F] [MathFn F] in
theorem irCut_none {new : Dict (PyVal F)} (h1 : new.get? "rs_function" = none) (h2 : new.get? "rb_function" = none) :
    Dict.get? (cutAndCheckPamset (irRequired (F := F)) new irUsed) "rs_function" = none ∧
    Dict.get? (cutAndCheckPamset (irRequired (F := F)) new irUsed) "rb_function" = none := by
  constructor <;> rw [get?_eq_none_iff] <;> intro hk <;> have := irCut_keys h1 h2 hk <;>
    rw [irRequired_keys] at this <;> revert this <;> decide

theorem irCut_plain {new : Dict (PyVal F)} (h1 : new.get? "rs_function" = none) (h2 : new.get? "rb_function" = none) :
    PlainIR (cutAndCheckPamset (irRequired (F := F)) new irUsed) := by
  refine ⟨_, processFlat_plain ?_, (irCut_none h1 h2).1, (irCut_none h1 h2).2⟩
  intro key hk pre hpre
  have := irCut_keys h1 h2 hk
  rw [irRequired_keys] at this
  exact no_flat_key key this pre hpre

theorem ir_creates {i : Bool} {ps : Option (Dict (PyVal F))} {p : Dict (PyVal F)} (hp : PlainIR p) {ns ne n : ℤ}
    (hle : ns ≤ ne) (hns : pamI (Factory.checkPamset ps) "nystart" = .ok ns)
    (hne : pamI (Factory.checkPamset ps) "nyend" = .ok ne) (hn : pamI (Factory.checkPamset ps) "idtm" = .ok n)
    (hn0 : 0 < n) :
    ∃ k, irOps.create (Dict.set (Factory.checkPamset ps) "conc_run" (.bool i)) p = .ok k ∧ IRFit (F := F) ns ne k := by
  obtain ⟨new, e, h1, h2⟩ := hp
  have hnum : Numeric (cutAndCheckPamset irRequired new irUsed) (irRequired (F := F)).keys :=
    numeric_cut irRequired_wf irRequired_num
  have hmiss := irCut_missing h1 h2
  have hplain := irCut_plain h1 h2
  obtain ⟨n1, n2⟩ := irCut_none h1 h2
  have ht1 := time_pam ps (.bool i) (k := "idtm") (by simp) hn
  have ht2 := time_pam ps (.bool i) (k := "nystart") (by simp) hns
  have ht3 := time_pam ps (.bool i) (k := "nyend") (by simp) hne
  obtain ⟨mixed, hm⟩ := hnum.pamF (k := "mixed_carbon") (by rw [irRequired_keys]; decide)
  show ∃ k, irCreate _ p = .ok k ∧ IRFit ns ne k
  unfold irCreate
  rw [e, bind_ok]
  simp only
  generalize cutAndCheckPamset (irRequired (F := F)) new irUsed = pam at hnum hmiss hplain n1 n2 hm ⊢
  generalize cutAndCheckPamset (timeRequired (F := F)) _ _ = time at ht1 ht2 ht3 ⊢
  rw [hmiss, bind_ok, ht1, bind_ok, ht2, bind_ok, ht3, bind_ok, if_neg (by omega), hm, bind_ok]
  exact ir_first hle ⟨hnum, hn0, rfl, rfl⟩ hplain n1 n2

/-! ## The two-layer model -/

theorem twoLayer_works (udm : Option (Dict (PyVal F))) : ThermalWorks (ThermalInst.twoLayerOps (F := F)) udm := by
  refine ⟨fun _ => True, ?_, fun _ _ _ => trivial, ?_⟩
  · have hnum : Numeric (cutAndCheckPamset ThermalInst.twoLayerRequired (udm.getD []) [])
        (ThermalInst.twoLayerRequired (F := F)).keys := by
      refine numeric_cut ?_ ?_
      · simp [ThermalInst.twoLayerRequired, WF, Dict.keys]
      · intro kv hkv
        unfold ThermalInst.twoLayerRequired at hkv
        simp only [List.mem_cons, List.not_mem_nil, or_false] at hkv
        rcases hkv with h | h | h | h | h | h | h | h <;> rw [h] <;> rfl
    have h : ∀ x ∈ (ThermalInst.twoLayerRequired (F := F)).keys, ∃ v : F, Handler.pamF _ x = .ok v :=
      fun x hx => Numeric.pamF hnum hx
    simp only [ThermalInst.twoLayerRequired, Dict.keys, List.map_cons, List.map_nil] at h
    obtain ⟨v1, h1⟩ := h "lambda" (by simp)
    obtain ⟨v2, h2⟩ := h "mixed" (by simp)
    obtain ⟨v3, h3⟩ := h "deep" (by simp)
    obtain ⟨v4, h4⟩ := h "k" (by simp)
    obtain ⟨v5, h5⟩ := h "ocean_efficacy" (by simp)
    obtain ⟨v6, h6⟩ := h "foan" (by simp)
    obtain ⟨v7, h7⟩ := h "foas" (by simp)
    obtain ⟨v8, h8⟩ := h "delta_lambda_aero" (by simp)
    show ∃ t, ThermalInst.twoLayerCreate udm = .ok t ∧ True
    unfold ThermalInst.twoLayerCreate ThermalInst.twoLayerPams ThermalInst.twoLayerRequired
    rw [h1, bind_ok, h2, bind_ok, h3, bind_ok, h4, bind_ok, h5, bind_ok, h6, bind_ok, h7, bind_ok, h8, bind_ok]
    exact ⟨_, rfl, trivial⟩
  · intro t fn fs vn vs _ hl _
    refine ⟨_, _, if_pos hl, trivial, ?_⟩
    intro p hp
    have : p ∈ twoLayerOutputs := hp
    unfold twoLayerOutputs at this
    simp only [List.mem_cons, List.not_mem_nil, or_false] at this
    rcases this with rfl | rfl | rfl | rfl | rfl | rfl | rfl | rfl <;>
      exact ⟨_, by simp [ThermalInst.outDict, Dict.get?]; rfl⟩

end
end Verif.Props
