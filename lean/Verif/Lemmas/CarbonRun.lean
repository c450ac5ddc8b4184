import Verif.Props.C61
import Verif.Props.C03_C04
import Verif.Lemmas.Carbon
import Verif.Lemmas.CompleteCarbon

/-!
# The default carbon cycle inside a run is the stand-alone carbon cycle

`SteppedThrough` (what a run does with its carbon cycle) unfolded for `irOps` and `boxOps`.
-/

namespace Verif.Props
open Verif.Py Verif.Py.Dict Verif.Model Verif.Model.Handler Verif.Model.Driver Verif.Spec
  Verif.Model.CarbonInst Verif.Model.Carbon

section
variable {F : Type} [Add F] [Sub F] [Mul F] [Div F] [Neg F] [OfScientific F] [LT F] [DecidableLT F]
  [MathFn F]

/-- The CO2 emissions a run hands to its carbon cycle in the year with index `n`. -/
def emissionOf (emis : Frame F) (nat : F) (ns : ℤ) (n : ℕ) : F :=
  match emis.at' "CO2_FF" (ns + n), emis.at' "CO2_AFOLU" (ns + n) with
  | .ok ff, .ok lu => ff + lu + nat
  | _, _ => nat

/-- The temperature change in a feedback dictionary. -/
def dtempIn (fb : Option (Dict F)) : Option F := fb.bind (fun d => d.get? "dtemp")

/-- The stand-alone carbon cycle after `n` years with these emissions and feedbacks. -/
def aloneState (P : Pams F) (emis : Frame F) (nat : F) (ns : ℤ) (fb : ℤ → Option (Dict F)) (n : ℕ) : State F :=
  yearState P (emissionOf emis nat ns) (fun n => dtempIn (fb (ns + n))) (initState P) n

theorem irPams_hold {k k' : IR F} {P : Pams F} (h : irPams k = .ok P) (e : k' = { k with hold := k'.hold }) :
    irPams k' = .ok P := by
  rw [e]
  exact h

theorem irPams_idtm {k : IR F} {P : Pams F} (h : irPams k = .ok P) :
    P.idtm = k.idtm.toNat ∧ P.years_tot = k.years_tot.toNat ∧ P.rs = k.rs ∧ P.rb = k.rb ∧
      pamF k.pam "preindustrial_co2_conc" = .ok P.preindustrial_co2_conc ∧
      pamF k.pam "beta_f" = .ok P.beta_f ∧ pamF k.pam "mixed_carbon" = .ok P.mixed_carbon ∧
      pamF k.pam "ml_w_sigmoid" = .ok P.ml_w_sigmoid ∧ pamF k.pam "ml_fracmax" = .ok P.ml_fracmax ∧
      pamF k.pam "ml_depth_min" = .ok P.ml_depth_min := by
  unfold irPams at h
  simp only [bind_eq_ok] at h
  obtain ⟨a1, b1, a2, b2, a3, b3, a4, b4, a5, b5, a6, b6, a7, b7, a8, b8, a9, b9, c1, d1, c2, d2, c3, d3, c4, d4, h⟩ := h
  rw [pure_ok, Except.ok.injEq] at h
  subst h
  exact ⟨rfl, rfl, rfl, rfl, d4, b1, b2, b3, b4, d3⟩

theorem irStep_ok {k : IR F} {y : ℤ} {em : F} {fb : Option (Dict F)} {r : F × IR F}
    (e : irOps.step k y em fb = .ok r) : ∃ P, irPams k = .ok P ∧ 0 < k.idtm ∧ k.nystart ≤ y ∧
      y - k.nystart < k.years_tot ∧
      r.2 = { k with hold := co2em2conc P k.hold (y - k.nystart).toNat em (dtempIn fb) } ∧ r.1 = r.2.hold.xCO2 := by
  simp only [irOps, irStep, bind_eq_ok] at e
  obtain ⟨P, hP, e⟩ := e
  split at e
  · cases e
  · split at e
    · cases e
    · rw [pure_ok, Except.ok.injEq] at e
      subst e
      exact ⟨P, hP, by omega, by omega, by omega, rfl, rfl⟩

/-- A run's carbon cycle, unfolded: from the second year on the model object is that of the stand-alone
carbon cycle started from its initial state with the parameters in force. -/
theorem ir_years {k : IR F} {q : Option (Dict (PyVal F))} {emis : Frame F} {nat : F} {ns ne : ℤ}
    {state : ℤ → IR F} {fb : ℤ → Option (Dict F)} {conc : ℤ → Option F} (hns : k.nystart = ns) (hle : ns ≤ ne)
    (h0 : irOps.reset k q = .ok (state ns)) (hst : SteppedThrough irOps emis nat ns ne state fb conc) :
    ∃ P, irPams (state ns) = .ok P ∧ 0 < P.idtm ∧ ne - ns < k.years_tot ∧
      ∀ n : ℕ, ns + n ≤ ne →
        state (ns + n + 1) = { state ns with hold := aloneState P emis nat ns fb (n + 1) } ∧
        conc (ns + n) = some (aloneState P emis nat ns fb (n + 1)).xCO2 := by
  obtain ⟨e1, e2, e3, -, hz, -⟩ := irReset_spec h0
  have hem : ∀ n : ℕ, ∀ ff lu, emis.at' "CO2_FF" (ns + n) = .ok ff → emis.at' "CO2_AFOLU" (ns + n) = .ok lu →
      ff + lu + nat = emissionOf emis nat ns n := by
    intro n ff lu h1 h2
    unfold emissionOf
    rw [h1, h2]
  obtain ⟨ff, lu, v, a1, a2, a3, a4⟩ := hst ns (le_refl _) hle
  obtain ⟨P, hP, hi, -, -, b1, b2⟩ := irStep_ok a3
  have hid : 0 < P.idtm := by rw [(irPams_idtm hP).1]; omega
  have hlast : ne - ns < k.years_tot := by
    -- the last year succeeds
    obtain ⟨ff', lu', v', -, -, c3, -⟩ := hst ne hle (le_refl _)
    obtain ⟨P', -, -, -, hlt, -, -⟩ := irStep_ok c3
    have hkeep : ∀ n : ℕ, ns + n ≤ ne → (state (ns + n)).nystart = ns ∧ (state (ns + n)).years_tot = k.years_tot := by
      intro n
      induction n with
      | zero => intro _; simp only [Nat.cast_zero, add_zero]; exact ⟨e2.trans hns, e3⟩
      | succ n ih =>
        intro hn
        push_cast at hn
        obtain ⟨i1, i2⟩ := ih (by omega)
        obtain ⟨_, _, _, _, _, f3, _⟩ := hst (ns + n) (by omega) (by omega)
        obtain ⟨_, _, _, _, _, g1, _⟩ := irStep_ok f3
        rw [show ns + ((n + 1 : ℕ) : ℤ) = ns + n + 1 by push_cast; ring]
        simp only at g1
        rw [g1]
        exact ⟨i1, i2⟩
    have := hkeep (ne - ns).toNat (by omega)
    rw [show ns + ((ne - ns).toNat : ℤ) = ne by omega] at this
    rw [this.1, this.2] at hlt
    exact hlt
  refine ⟨P, hP, hid, hlast, ?_⟩
  intro n
  induction n with
  | zero =>
    intro _
    simp only [Nat.cast_zero, add_zero]
    have hT : dtempIn (fb ns) = dtempIn (fb (ns + (0 : ℕ))) := by simp
    have key : co2em2conc P (state ns).hold (ns - (state ns).nystart).toNat (ff + lu + nat) (dtempIn (fb ns)) =
        aloneState P emis nat ns fb (0 + 1) := by
      rw [e2, hns, sub_self, Int.toNat_zero, zero_add, aloneState, yearState, yearState,
        hem 0 ff lu (by simpa using a1) (by simpa using a2), ← hT]
      refine co2em2conc_congr P ?_ 0 _ _ hid (fun h => absurd h (lt_irrefl _))
      exact ⟨hz.yCO2, hz.sCO2, hz.emCO2_prev, hz.dfnpp, hz.ss1, hz.sums⟩
    simp only at b1 b2
    rw [key] at b1
    refine ⟨b1, ?_⟩
    rw [a4, b2, b1]
  | succ n ih =>
    intro hn
    push_cast at hn
    obtain ⟨i1, -⟩ := ih (by omega)
    obtain ⟨ff', lu', v', c1, c2, c3, c4⟩ := hst (ns + (n + 1 : ℕ)) (by omega) (by push_cast; omega)
    obtain ⟨P', hP', -, -, -, g1, g2⟩ := irStep_ok c3
    have hs : state (ns + ((n + 1 : ℕ) : ℤ)) = { state ns with hold := aloneState P emis nat ns fb (n + 1) } := by
      rw [← i1]; congr 1; push_cast; ring
    rw [hs] at hP' g1
    have : P' = P := by
      have h' : irPams { state ns with hold := aloneState P emis nat ns fb (n + 1) } = .ok P := hP
      rw [h'] at hP'
      exact (Except.ok.inj hP').symm
    subst this
    simp only at g1 g2
    have hix : (ns + ((n + 1 : ℕ) : ℤ) - (state ns).nystart).toNat = n + 1 := by rw [e2, hns]; omega
    rw [hem (n + 1) ff' lu' c1 c2, hix] at g1
    refine ⟨g1, ?_⟩
    rw [c4, g2, g1]
    rfl

/-! ## The box model -/

theorem boxStep_ok {k : BoxM F} {y : ℤ} {em : F} {fb : Option (Dict F)} {r : F × BoxM F}
    (e : boxOps.step k y em fb = .ok r) : ∃ P, boxPams k = .ok P ∧
      r.2 = { k with pools := Box.co2em2conc P k.pools em (dtempIn fb) } ∧ r.1 = r.2.pools.atmospheric_co2 := by
  simp only [boxOps, boxStep, bind_eq_ok] at e
  obtain ⟨P, hP, e⟩ := e
  rw [pure_ok, Except.ok.injEq] at e
  subst e
  exact ⟨P, hP, rfl, rfl⟩

/-- The stand-alone box model after `n` years. -/
def boxAlone (P : Box.Pams F) (E : ℕ → F) (T : ℕ → Option F) (n : ℕ) : Box.State F :=
  Box.run P Box.reset ((List.range n).map (fun j => (E j, T j)))

theorem boxAlone_succ (P : Box.Pams F) (E : ℕ → F) (T : ℕ → Option F) (n : ℕ) :
    boxAlone P E T (n + 1) = Box.co2em2conc P (boxAlone P E T n) (E n) (T n) := by
  unfold boxAlone Box.run
  rw [List.range_succ, List.map_append, List.foldl_append]
  rfl

theorem box_years {k : BoxM F} {q : Option (Dict (PyVal F))} {emis : Frame F} {nat : F} {ns ne : ℤ}
    {state : ℤ → BoxM F} {fb : ℤ → Option (Dict F)} {conc : ℤ → Option F} (hle : ns ≤ ne)
    (h0 : boxOps.reset k q = .ok (state ns)) (hst : SteppedThrough boxOps emis nat ns ne state fb conc) :
    ∃ P, boxPams (state ns) = .ok P ∧
      ∀ n : ℕ, ns + n ≤ ne →
        state (ns + n + 1) = { state ns with
          pools := boxAlone P (emissionOf emis nat ns) (fun n => dtempIn (fb (ns + n))) (n + 1) } ∧
        conc (ns + n) = some (boxAlone P (emissionOf emis nat ns)
          (fun n => dtempIn (fb (ns + n))) (n + 1)).atmospheric_co2 := by
  have hpools : (state ns).pools = Box.reset := by
    simp only [boxOps, boxReset, Except.ok.injEq] at h0
    rw [← h0]
  have hem : ∀ n : ℕ, ∀ ff lu, emis.at' "CO2_FF" (ns + n) = .ok ff → emis.at' "CO2_AFOLU" (ns + n) = .ok lu →
      ff + lu + nat = emissionOf emis nat ns n := by
    intro n ff lu h1 h2
    unfold emissionOf
    rw [h1, h2]
  obtain ⟨_, _, _, _, _, a3, _⟩ := hst ns (le_refl _) hle
  obtain ⟨P, hP, -, -⟩ := boxStep_ok a3
  refine ⟨P, hP, ?_⟩
  have key : ∀ n : ℕ, ns + n ≤ ne + 1 → state (ns + n) = { state ns with
      pools := boxAlone P (emissionOf emis nat ns) (fun n => dtempIn (fb (ns + n))) n } := by
    intro n
    induction n with
    | zero =>
      intro _
      rw [Nat.cast_zero, add_zero, show boxAlone P (emissionOf emis nat ns) (fun n => dtempIn (fb (ns + n))) 0 =
        Box.reset from rfl, ← hpools]
    | succ n ih =>
      intro hn
      push_cast at hn
      have ih := ih (by omega)
      obtain ⟨ff', lu', v', c1, c2, c3, -⟩ := hst (ns + n) (by omega) (by omega)
      obtain ⟨P', hP', g1, -⟩ := boxStep_ok c3
      rw [ih] at hP' g1
      have : P' = P := by
        have h' : boxPams { state ns with
          pools := boxAlone P (emissionOf emis nat ns) (fun n => dtempIn (fb (ns + n))) n } = .ok P := hP
        rw [h'] at hP'
        exact (Except.ok.inj hP').symm
      subst this
      simp only at g1
      rw [hem n ff' lu' c1 c2] at g1
      rw [show ns + ((n + 1 : ℕ) : ℤ) = ns + n + 1 by push_cast; ring, g1, boxAlone_succ]
  intro n hn
  have h1 := key (n + 1) (by push_cast; omega)
  rw [show ns + ((n + 1 : ℕ) : ℤ) = ns + n + 1 by push_cast; ring] at h1
  refine ⟨h1, ?_⟩
  obtain ⟨ff', lu', v', -, -, c3, c4⟩ := hst (ns + n) (by omega) hn
  obtain ⟨P', -, -, g2⟩ := boxStep_ok c3
  simp only at g2
  rw [c4, g2, h1]

/-! ## The pre-industrial concentration of the default carbon cycle -/

omit [Add F] [Sub F] [Mul F] [Div F] [Neg F] [OfScientific F] [LT F] [DecidableLT F] [MathFn F] in
theorem extract_keys {V : Type} (isNone : Flat.PVal V → Bool) (d : Dict (Flat.PVal V)) (pre : String) {k : String}
    (hk : Flat.idxOf pre k = none) : k ∉ (Flat.extract isNone d pre).2 := by
  unfold Flat.extract
  simp only
  have key : ∀ acc : List (Option (Flat.PVal V)) × List String, k ∉ acc.2 →
      k ∉ (d.foldl (Flat.extractStep isNone pre) acc).2 := by
    induction d with
    | nil => exact fun _ h => h
    | cons kv d ih =>
      intro acc h
      rw [List.foldl_cons]
      apply ih
      unfold Flat.extractStep
      split
      · next i hi =>
        simp only [List.mem_append, List.mem_singleton, not_or]
        refine ⟨h, ?_⟩
        rintro rfl
        rw [hk] at hi
        cases hi
      · exact h
  exact key _ (by simp)

omit [Add F] [Sub F] [Mul F] [Div F] [Neg F] [OfScientific F] [LT F] [DecidableLT F] [MathFn F] in
theorem popAll_keep {V : Type} {k : String} : ∀ (ks : List String) (d r : Dict (Flat.PVal V)), k ∉ ks →
    Flat.popAll d ks = .ok r → get? r k = get? d k ∧ (WF d → WF r) := by
  intro ks
  induction ks with
  | nil =>
    intro d r _ h
    rw [Flat.popAll, Except.ok.injEq] at h
    subst h
    exact ⟨rfl, id⟩
  | cons a ks ih =>
    intro d r hk h
    simp only [List.mem_cons, not_or] at hk
    rw [Flat.popAll] at h
    split at h
    · obtain ⟨h1, h2⟩ := ih _ _ hk.2 h
      refine ⟨?_, fun hw => h2 ?_⟩
      · rw [h1, get?_erase, if_neg]
        exact fun e => hk.1 e
      · unfold WF keys Dict.erase
        exact List.Nodup.sublist (List.Sublist.map _ List.filter_sublist) hw
    · cases h

omit [Add F] [Sub F] [Mul F] [Div F] [Neg F] [OfScientific F] [LT F] [DecidableLT F] [MathFn F] in
/-- A parameter that is no flat response coefficient and no response function passes unchanged. -/
theorem flat_keep {V : Type} {isNone : Flat.PVal V → Bool} {d r : Dict (Flat.PVal V)} {k : String}
    (hk : ∀ pre ∈ ["rb_coef", "rb_tim", "rs_coef", "rs_tim"], Flat.idxOf pre k = none)
    (h1 : k ≠ "rb_function") (h2 : k ≠ "rs_function") (h : Flat.processFlat isNone d = .ok r) :
    get? r k = get? d k ∧ (WF d → WF r) := by
  unfold Flat.processFlat at h
  split at h
  · simp only [bind_eq_ok] at h
    obtain ⟨⟨p1, k1⟩, e1, ⟨p2, k2⟩, e2, h⟩ := h
    simp only at e1 e2 h
    have s1 : get? p1 k = get? d k ∧ (WF d → WF p1) ∧ k ∉ k1 := by
      unfold Flat.processRb at e1
      simp only at e1
      split at e1
      · rw [Except.ok.injEq, Prod.mk.injEq] at e1
        obtain ⟨rfl, rfl⟩ := e1
        exact ⟨rfl, id, by simp⟩
      · split at e1
        · cases e1
        · rw [Except.ok.injEq, Prod.mk.injEq] at e1
          obtain ⟨rfl, rfl⟩ := e1
          refine ⟨?_, ?_, ?_⟩
          · split
            · rfl
            · rw [get?_set, if_neg (fun e => h1 e.symm)]
          · intro hw
            split
            · exact hw
            · exact WF_set _ _ _ hw
          · rw [List.mem_append, not_or]
            exact ⟨extract_keys _ _ _ (hk _ (by simp)), extract_keys _ _ _ (hk _ (by simp))⟩
    have s2 : get? p2 k = get? p1 k ∧ (WF p1 → WF p2) ∧ k ∉ k2 := by
      unfold Flat.processRs at e2
      simp only at e2
      split at e2
      · rw [Except.ok.injEq, Prod.mk.injEq] at e2
        obtain ⟨rfl, rfl⟩ := e2
        exact ⟨rfl, id, by simp⟩
      · split at e2
        · cases e2
        · rw [Except.ok.injEq, Prod.mk.injEq] at e2
          obtain ⟨rfl, rfl⟩ := e2
          refine ⟨?_, ?_, ?_⟩
          · split
            · rfl
            · rw [get?_set, if_neg (fun e => h2 e.symm)]
          · intro hw
            split
            · exact hw
            · exact WF_set _ _ _ hw
          · rw [List.mem_append, not_or]
            exact ⟨extract_keys _ _ _ (hk _ (by simp)), extract_keys _ _ _ (hk _ (by simp))⟩
    obtain ⟨s3, s4⟩ := popAll_keep (k := k) _ _ _ (by rw [List.mem_append, not_or]; exact ⟨s1.2.2, s2.2.2⟩) h
    exact ⟨by rw [s3, s2.1, s1.1], fun hw => s4 (s2.2.1 (s1.2.1 hw))⟩
  · rw [Except.ok.injEq] at h
    subst h
    exact ⟨rfl, id⟩

omit [Add F] [Sub F] [Mul F] [Div F] [Neg F] [OfScientific F] [LT F] [DecidableLT F] [MathFn F] in
theorem mapM_dict {V W : Type} {f : V → Except PyErr W} : ∀ {d : Dict V} {r : Dict W},
    d.mapM (fun kv => do return (kv.1, ← f kv.2)) = .ok r →
    r.keys = d.keys ∧ ∀ k v, get? d k = some v → ∃ w, f v = .ok w ∧ get? r k = some w := by
  intro d
  induction d with
  | nil =>
    intro r h
    rw [List.mapM_nil, pure_ok, Except.ok.injEq] at h
    subst h
    exact ⟨rfl, fun k v h => by cases h⟩
  | cons kv d ih =>
    intro r h
    rw [List.mapM_cons] at h
    simp only [bind_eq_ok] at h
    obtain ⟨a, ⟨w, hw, ha⟩, l, hl, h⟩ := h
    rw [pure_ok, Except.ok.injEq] at h ha
    subst h ha
    obtain ⟨i1, i2⟩ := ih hl
    constructor
    · unfold Dict.keys at i1 ⊢
      rw [List.map_cons, List.map_cons, i1]
    · intro k v hv
      rw [show (kv :: d) = (kv.1, kv.2) :: d from rfl, get?_cons] at hv
      rw [get?_cons]
      split at hv
      · next he =>
        rw [Option.some.injEq] at hv
        subst hv
        exact ⟨w, hw, by rw [if_pos he]⟩
      · next he =>
        obtain ⟨w', h1, h2⟩ := i2 k v hv
        exact ⟨w', h1, by rw [if_neg he]; exact h2⟩

/-- Processing the flat response coefficients leaves an ordinary parameter alone. -/
theorem processFlat_keep {d r : Dict (PyVal F)} {k : String} {v : PyVal F}
    (hk : ∀ pre ∈ ["rb_coef", "rb_tim", "rs_coef", "rs_tim"], Flat.idxOf pre k = none)
    (h1 : k ≠ "rb_function") (h2 : k ≠ "rs_function") (h : processFlat d = .ok r) (hv : get? d k = some v) :
    get? r k = some v ∧ (WF d → WF r) := by
  unfold processFlat at h
  rw [bind_eq_ok] at h
  obtain ⟨q, hq, h⟩ := h
  obtain ⟨e1, e2⟩ := flat_keep hk h1 h2 hq
  obtain ⟨m1, m2⟩ := mapM_dict h
  have hd : ∀ d : Dict (PyVal F), get? (d.map (fun kv => (kv.1, Flat.PVal.val kv.2)) : Dict (Flat.PVal (PyVal F))) k =
      (get? d k).map Flat.PVal.val := by
    intro d
    induction d with
    | nil => rfl
    | cons kv d ih =>
      rw [List.map_cons, get?_cons, ih, show (kv :: d) = (kv.1, kv.2) :: d from rfl, get?_cons]
      split <;> rfl
  rw [hd, hv, Option.map_some] at e1
  obtain ⟨w, w1, w2⟩ := m2 k _ e1
  rw [unflat, Except.ok.injEq] at w1
  subst w1
  refine ⟨w2, ?_⟩
  intro hw
  unfold WF
  rw [m1]
  apply e2
  unfold WF keys
  rw [List.map_map]
  exact hw

/-- A new instance's default carbon cycle takes the first CO2 concentration of the table as its
pre-industrial one, whatever the carbon parameters say. -/
theorem ir_preindustrial {i : Inputs F} {pamset carb : Option (Dict (PyVal F))} {h0 : Handler F (IR F)} {ns : ℤ}
    (hwf : WF (carb.getD [])) (hns : pamI (Factory.checkPamset pamset) "nystart" = .ok ns)
    (hc : construct irOps i pamset carb = .ok h0) :
    ∃ pre, i.concIn.at' "CO2" ns = .ok pre ∧ get? h0.carbon.pam "preindustrial_co2_conc" = some (.flt pre) := by
  obtain ⟨ns1, ne1, emis, clbr, prec, pre, k0, k, e1, e2, -, -, -, e6, e7, e8, rfl⟩ := construct_spec hc
  rw [e1, Except.ok.injEq] at hns
  subst hns
  refine ⟨pre, e6, ?_⟩
  simp only
  simp only [irOps] at e7 e8
  have hmem : "preindustrial_co2_conc" ∈ Dict.keys k0.pam := by
    simp only [irCreate, bind_eq_ok] at e7
    obtain ⟨p, _, pam, hpam, idtm, t1, ns, t2, ne, t3, e7⟩ := e7
    have hp : pam = cutAndCheckPamset irRequired p irUsed := by
      unfold takeOutMissing at hpam
      split at hpam
      · cases hpam
      · exact (Except.ok.inj hpam).symm
    split at e7
    · cases e7
    · simp only [bind_eq_ok] at e7
      obtain ⟨mixed, _, m, hm, e7⟩ := e7
      obtain ⟨-, hk0⟩ := precalcR_spec e7
      obtain ⟨-, -, -, -, -, hh⟩ := irReset_spec hm
      have hin : "preindustrial_co2_conc" ∈ Dict.keys pam := by
        rw [hp]
        obtain ⟨v, hv, -⟩ := numeric_cut (req := irRequired) (p := p) (used := irUsed) irRequired_wf irRequired_num
          "preindustrial_co2_conc" (by simp [irRequired, Dict.keys])
        exact (get?_isSome_iff _ _).1 ⟨v, hv⟩
      rw [hk0]
      rcases hh with ⟨hh, -⟩ | ⟨p', new, -, -, hh⟩
      · cases hh
      · rw [hh, irNewPam_mem _ _ _ (by decide)]
        exact hin
  obtain ⟨-, -, -, -, -, hh⟩ := irReset_spec e8
  rcases hh with ⟨hh, -⟩ | ⟨p', new, hp', hn, hh⟩
  · cases hh
  rw [Option.some.injEq] at hp'
  subst hp'
  obtain ⟨g1, g2⟩ := processFlat_keep (k := "preindustrial_co2_conc") (v := .flt pre) (by decide) (by decide)
    (by decide) hn (by rw [get?_set, if_pos rfl])
  rw [hh, irNewPam_get?, if_neg (by decide), get?_updatePam_foldl _ (g2 (WF_set _ _ _ hwf)), g1]
  simp only
  rw [if_pos ⟨by simp [irRequired, Dict.keys], hmem, rfl⟩]

/-- Processing the flat response coefficients adds no ordinary parameter. -/
theorem processFlat_get? {d r : Dict (PyVal F)} {k : String}
    (hk : ∀ pre ∈ ["rb_coef", "rb_tim", "rs_coef", "rs_tim"], Flat.idxOf pre k = none)
    (h1 : k ≠ "rb_function") (h2 : k ≠ "rs_function") (h : processFlat d = .ok r) :
    get? r k = get? d k ∧ (WF d → WF r) := by
  unfold processFlat at h
  rw [bind_eq_ok] at h
  obtain ⟨q, hq, h⟩ := h
  obtain ⟨e1, e2⟩ := flat_keep hk h1 h2 hq
  obtain ⟨m1, m2⟩ := mapM_dict h
  have hd : ∀ d : Dict (PyVal F), get? (d.map (fun kv => (kv.1, Flat.PVal.val kv.2)) : Dict (Flat.PVal (PyVal F))) k =
      (get? d k).map Flat.PVal.val := by
    intro d
    induction d with
    | nil => rfl
    | cons kv d ih =>
      rw [List.map_cons, get?_cons, ih, show (kv :: d) = (kv.1, kv.2) :: d from rfl, get?_cons]
      split <;> rfl
  constructor
  · cases hv : get? d k with
    | some v =>
      rw [hd, hv, Option.map_some] at e1
      obtain ⟨w, w1, w2⟩ := m2 k _ e1
      rw [unflat, Except.ok.injEq] at w1
      subst w1
      exact w2
    | none =>
      rw [hd, hv, Option.map_none, get?_eq_none_iff, ← m1] at e1
      exact (get?_eq_none_iff _ _).2 e1
  · intro hw
    unfold WF
    rw [m1]
    apply e2
    unfold WF keys
    rw [List.map_map]
    exact hw

theorem ir_no_flat : ∀ x ∈ ["beta_f", "mixed_carbon", "ml_w_sigmoid", "ml_fracmax", "ml_t_half", "t_half", "w_sigmoid",
    "t_threshold", "w_threshold", "solubility_sens", "solubility_limit", "ml_depth_min", "preindustrial_co2_conc"],
    (∀ pre ∈ ["rb_coef", "rb_tim", "rs_coef", "rs_tim"], Flat.idxOf pre x = none) ∧ x ≠ "rb_function" ∧
      x ≠ "rs_function" := by decide

/-- A new instance's default carbon cycle uses, for each of its parameters but the pre-industrial concentration, the given
value if it is a number and the default otherwise. -/
theorem ir_parameter {i : Inputs F} {pamset carb : Option (Dict (PyVal F))} {h0 : Handler F (IR F)} {x : String} {v : PyVal F}
    (hwf : WF (carb.getD [])) (hx : get? (irRequired (F := F)) x = some v) (hpre : x ≠ "preindustrial_co2_conc")
    (hc : construct irOps i pamset carb = .ok h0) :
    get? h0.carbon.pam x =
      some (match get? (carb.getD []) x with | some w => if w.isNum = true then w else v | none => v) := by
  obtain ⟨ns1, ne1, emis, clbr, prec, pre, k0, k, e1, e2, -, -, -, e6, e7, e8, rfl⟩ := construct_spec hc
  simp only
  simp only [irOps] at e7 e8
  have hmem : x ∈ (irRequired (F := F)).keys := (get?_isSome_iff _ _).1 ⟨v, hx⟩
  have hvn : v.isNum = true := irRequired_num _ (Dict.mem_of_get? hx)
  have hfl : (∀ pre ∈ ["rb_coef", "rb_tim", "rs_coef", "rs_tim"], Flat.idxOf pre x = none) ∧ x ≠ "rb_function" ∧
      x ≠ "rs_function" := by
    rw [irRequired_keys] at hmem
    exact ir_no_flat x hmem
  obtain ⟨hfl, hb, hs⟩ := hfl
  generalize hw : (match get? (carb.getD []) x with | some w => if w.isNum = true then w else v | none => v) = w
  have hwn : w.isNum = true := by
    rw [← hw]
    split
    · split
      · assumption
      · exact hvn
    · exact hvn
  have hnot : ¬ (x = "rs_function" ∨ x = "rb_function") := fun h => h.elim hs hb
  have hset : get? (Dict.set (carb.getD []) "preindustrial_co2_conc" (.flt pre)) x = get? (carb.getD []) x := by
    rw [get?_set, if_neg (fun e => hpre e.symm)]
  have hk0 : get? k0.pam x = some w := by
    simp only [irCreate, bind_eq_ok] at e7
    obtain ⟨p, hp, pam, hpam, idtm, t1, ns, t2, ne, t3, e7⟩ := e7
    obtain ⟨g1, g2⟩ := processFlat_get? hfl hb hs hp
    have hpm : pam = cutAndCheckPamset irRequired p irUsed := by
      unfold takeOutMissing at hpam
      split at hpam
      · cases hpam
      · exact (Except.ok.inj hpam).symm
    have hpw : WF pam := by
      rw [hpm]
      unfold cutAndCheckPamset
      exact WF_checkNumericPamset _ _ (WF_cut _ _)
    have hin : get? pam x = some w := by
      rw [hpm]
      unfold cutAndCheckPamset
      rw [get?_checkNumericPamset irRequired_wf, hx, get?_cutNonRequired _ _ (g2 (WF_set _ _ _ hwf)), if_pos, g1, hset, ← hw]
      · simp only
        cases get? (carb.getD []) x with
        | none => rfl
        | some a => simp only; split <;> rfl
      · rw [mem_keys_usedKeys]; exact Or.inr hmem
    split at e7
    · cases e7
    · simp only [bind_eq_ok] at e7
      obtain ⟨mixed, _, m, hm, e7⟩ := e7
      obtain ⟨-, hk0⟩ := precalcR_spec e7
      obtain ⟨-, -, -, -, -, hh⟩ := irReset_spec hm
      rw [hk0]
      rcases hh with ⟨hh, -⟩ | ⟨p', new, hp', hn, hh⟩
      · cases hh
      · rw [Option.some.injEq] at hp'
        subst hp'
        obtain ⟨n1, n2⟩ := processFlat_get? hfl hb hs hn
        rw [hh, irNewPam_get?, if_neg hnot, get?_updatePam_foldl _ (n2 hpw), n1, hin]
        simp only
        split <;> rfl
  obtain ⟨-, -, -, -, -, hh⟩ := irReset_spec e8
  rcases hh with ⟨hh, -⟩ | ⟨p', new, hp', hn, hh⟩
  · cases hh
  rw [Option.some.injEq] at hp'
  subst hp'
  obtain ⟨g1, g2⟩ := processFlat_get? hfl hb hs hn
  rw [hh, irNewPam_get?, if_neg hnot, get?_updatePam_foldl _ (g2 (WF_set _ _ _ hwf)), g1, hset, hk0]
  cases hcx : get? (carb.getD []) x with
  | none => rfl
  | some a =>
    rw [hcx] at hw
    simp only at hw ⊢
    split
    · next hh => rw [← hw, if_pos hh.2.2]
    · rfl

end
end Verif.Props
