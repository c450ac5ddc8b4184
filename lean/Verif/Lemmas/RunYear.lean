import Verif.Props.C12

/-! # One year of a run of an instance with a history -/

namespace Verif.Props
open Verif.Py Verif.Py.Dict Verif.Model Verif.Model.Handler Verif.Model.Driver Verif.Spec

section
variable {F κ τ : Type} [Add F] [Sub F] [Mul F] [Div F] [Neg F] [OfScientific F] [LT F] [DecidableLT F]
  [MathFn F]

/-- Year `y` of a run: `a` is the handler before the year, `b` after the concentrations, `c` after the
forcing, `g` at the end of the run; `h0` is the new handler of the instance. -/
structure RunYear (cops : CarbonOps F κ) (i : Inputs F) (es ns ne : ℤ) (h0 g : Handler F κ) (emis : Frame F)
    (a b c : Handler F κ) (fb : Option (Dict F)) (luc sun : F) (r : ForcResult F) (y : ℤ) : Prop where
  emisE : perturbedEmis i = .ok emis
  emi : emi2conc cops a y fb = .ok b
  forc : conc2forc b y luc sun = .ok (r, c)
  sameB : Same a b
  sameC : Same b c
  sameG : Same c g
  keysB : b.gas.keys = i.gas.keys
  keysC : c.gas.keys = i.gas.keys
  keysG : g.gas.keys = i.gas.keys
  years : a.years = pyRange ns (ne + 1)
  emis : a.emis = emis
  concIn : a.concIn = i.concIn
  pert : a.pert = i.pertForc
  prec : a.prec = h0.prec
  gas : ∀ t, (a.gas.get? t).map (canon t) = (i.gas.get? t).map (canon t)
  natCh4 : a.natCh4 = i.natCh4
  natN2o : a.natN2o = i.natN2o
  run : pamB a.pam "conc_run" = .ok i.concRun
  before : beforeStart a.pam y = .ok (decide (y < es))
  concZ : ∀ t z, z ≤ y → g.conc t z = c.conc t z
  forcY : ∀ t, g.forc t (y - ns).toNat = c.forc t (y - ns).toNat
  forcKeys : a.forcKeys = forcKeysOf h0.prec.spicy

/-- All years of a run: the states `tr` of the loop and the handlers `H` before each year. -/
theorem run_years (law : YearLaw F) {cops : CarbonOps F κ} {tops : ThermalOps F τ} {d0 d d1 : Driver F κ}
    {i : Inputs F} {pamset carb : Option (Dict (PyVal F))} {h0 g : Handler F κ} {es : ℤ}
    {ps : List (RunPams F)} {p : RunPams F} {t : τ}
    (ht : RunTables i.concIn i.emis (Dict.set (Factory.checkPamset pamset) "conc_run" (.bool i.concRun))
      d0.nystart es d0.nyend)
    (hc : construct cops i pamset carb = .ok h0) (hd0 : d0.source = .handler h0)
    (ha : After cops tops d0 ps d) (hr : run cops tops d p = .ok (d1, t)) (hg : d1.source = .handler g) :
    ∃ (h : Handler F κ) (emis : Frame F) (tr : ℤ → RunState F κ τ) (H : ℤ → Handler F κ),
      d.source = .handler h ∧ d = { d0 with source := d.source, results := d.results } ∧
      Trace cops tops d p d1 t tr ∧ resetWithNewPams cops h p.emiconc p.carbon = .ok (H d0.nystart) ∧
      H (d0.nyend + 1) = g ∧
      ∀ z, d0.nystart ≤ z → z ≤ d0.nyend → ∃ b luc sun r values vn vs,
        RunYear cops i es d0.nystart d0.nyend h0 g emis (H z) b (H (z + 1))
          (feedbackDict d0.feedbackList (tr z).values) luc sun r z ∧
        HandlerYear cops tops d (tr z) (tr (z + 1)) (H z) b (H (z + 1)) z luc sun r values vn vs ∧
        d0.luc[(z - d0.nystart).toNat]? = some luc ∧ d0.sun[(z - d0.nystart).toNat]? = some sun := by
  have hle := ht.nonempty
  obtain ⟨emis, cl, br, he, ht2, hpre, hcg, hci, hce, hcp, hcy⟩ := constructed hc ht
  obtain ⟨h, hd, -, hk, hsame⟩ := after_spec law hd0 ha (fun _ => True) trivial
    (fun _ _ _ _ _ _ _ => trivial) (fun _ _ _ _ _ _ => trivial)
  have hns : d.nystart = d0.nystart := by rw [hsame]
  have hne : d.nyend = d0.nyend := by rw [hsame]
  have hluc : d.luc = d0.luc := by rw [hsame]
  have hsun : d.sun = d0.sun := by rw [hsame]
  obtain ⟨tr, htr⟩ := run_trace hr
  obtain ⟨H, hreset, hsrc, hyr⟩ := handler_trace htr hd
  have hk' : Kept False h0 h := { hk with just := fun h => h.elim }
  have kept := hk'.reset law hreset (fun h => h.elim)
  have hfb : d.feedbackList = d0.feedbackList := by rw [hsame]
  have hgH : g = H (d.nyend + 1) := by
    have e1 := hsrc (d.nyend + 1) (by omega) (le_refl _)
    have e2 : d1.source = (tr (d.nyend + 1)).source := by rw [htr.last.1]
    rw [hg, e1] at e2
    exact Source.handler.inj e2
  refine ⟨h, emis, tr, H, hd, hsame, htr, by rw [← hns]; exact hreset, by rw [hgH, hne], ?_⟩
  intro z hz1 hz2
  obtain ⟨s0, -, -⟩ := handler_frozen hyr (a := d.nystart) (b := z) (le_refl _) (by omega) (by omega)
  obtain ⟨h1, luc, sun, r, values, vn, vs, hy⟩ := hyr z (by omega) (by omega)
  obtain ⟨frz, frzc, frzf⟩ := handler_frozen hyr (a := z + 1) (b := d.nyend + 1) (by omega) (by omega) (le_refl _)
  obtain ⟨s1, -, -⟩ := emi2conc_frame hy.emi
  obtain ⟨i0, hi0, s2, -, g2, -, -⟩ := conc2forc_frame hy.forc
  have hkeys : ∀ n : ℕ, d.nystart + n ≤ d.nyend + 1 → (H (d.nystart + n)).gas.keys = i.gas.keys := by
    intro n
    induction n with
    | zero => intro _; rw [Nat.cast_zero, add_zero, kept.keys, hcg]
    | succ n ih =>
      intro hn
      push_cast at hn
      obtain ⟨m, _, _, _, _, _, _, hm⟩ := hyr (d.nystart + n) (by omega) (by omega)
      obtain ⟨_, _, _, _, gm, _, _⟩ := conc2forc_frame hm.forc
      have e : d.nystart + ((n + 1 : ℕ) : ℤ) = d.nystart + n + 1 := by push_cast; ring
      rw [e, gm, emi2conc_keys hm.emi, ih (by omega)]
  have hkeys' : ∀ y, d.nystart ≤ y → y ≤ d.nyend + 1 → (H y).gas.keys = i.gas.keys := by
    intro y y1 y2
    have := hkeys (y - d.nystart).toNat (by omega)
    rwa [show d.nystart + ((y - d.nystart).toNat : ℤ) = y by omega] at this
  have keptz : Kept False h0 (H z) := kept.same s0 (by
    rw [hkeys' z (by omega) (by omega), hkeys' d.nystart (le_refl _) (by omega)])
  refine ⟨h1, luc, sun, r, values, vn, vs, ?_, hy, ?_, ?_⟩
  · exact
    { emisE := he
      emi := by rw [← hfb]; exact hy.emi
      forc := hy.forc
      sameB := s1
      sameC := s2
      sameG := by rw [hgH]; exact frz
      keysB := by rw [emi2conc_keys hy.emi, hkeys' z (by omega) (by omega)]
      keysC := hkeys' _ (by omega) (by omega)
      keysG := by rw [hgH]; exact hkeys' _ (by omega) (by omega)
      years := by rw [keptz.years, hcy]
      emis := by rw [keptz.emis, hce]
      concIn := by rw [keptz.concIn, hci]
      pert := by rw [keptz.pert, hcp]
      prec := keptz.prec
      gas := fun t => by rw [keptz.gas, hcg]
      natCh4 := by
        rw [keptz.natCh4]
        obtain ⟨_, _, _, _, _, _, _, _, _, _, _, _, _, _, _, _, rfl⟩ := construct_spec hc
        rfl
      natN2o := by
        rw [keptz.natN2o]
        obtain ⟨_, _, _, _, _, _, _, _, _, _, _, _, _, _, _, _, rfl⟩ := construct_spec hc
        rfl
      run := by rw [s0.pam]; exact conc_run_handler law hk (concRun_constructed hc) hreset
      before := by
        rw [keptz.before z]
        have hem := ht.emstart
        obtain ⟨_, _, _, _, _, _, _, _, _, _, _, _, _, _, _, _, rfl⟩ := construct_spec hc
        simp only
        unfold beforeStart Dict.getE
        rw [avoid_get? _ _ _ (by decide)]
        unfold pamI Dict.getE at hem
        cases hv : Dict.get? (Dict.set (Factory.checkPamset pamset) "conc_run" (.bool i.concRun)) "emstart" with
        | none => rw [hv] at hem; cases hem
        | some v =>
          rw [hv] at hem
          simp only [bind_ok] at hem ⊢
          unfold yearLt
          cases hvi : v.toI with
          | none => rw [hvi] at hem; cases hem
          | some x =>
            rw [hvi] at hem
            simp only [Except.ok.injEq] at hem ⊢
            rw [hem]
      concZ := fun t y hyz => by rw [hgH]; exact frzc t y (by omega)
      forcY := fun t => by
        obtain ⟨y0, hy0, -, hi, -⟩ := index_spec hi0
        have hyy : y0 = d0.nystart := by
          have hyrs : h1.years = pyRange d0.nystart (d0.nyend + 1) := by rw [s1.years, keptz.years, hcy]
          unfold Handler.y0 at hy0
          rw [hyrs, pyRange_cons (by omega)] at hy0
          simpa using hy0.symm
        rw [hyy] at hi
        rw [← hi, hgH]
        exact frzf t z i0 (by omega) (by rw [s2.index]; exact hi0)
      forcKeys := by
        rw [s0.forcKeys]
        obtain ⟨pam, c, -, -, e⟩ := reset_spec hreset
        rw [e, hk.prec] }
  · have := (rowOf_eq_ok.1 hy.lucE).2
    rw [hluc, hns] at this
    exact this
  · have := (rowOf_eq_ok.1 hy.sunE).2
    rw [hsun, hns] at this
    exact this

theorem run_year (law : YearLaw F) {cops : CarbonOps F κ} {tops : ThermalOps F τ} {d0 d d1 : Driver F κ}
    {i : Inputs F} {pamset carb : Option (Dict (PyVal F))} {h0 g : Handler F κ} {es : ℤ}
    {ps : List (RunPams F)} {p : RunPams F} {t : τ}
    (ht : RunTables i.concIn i.emis (Dict.set (Factory.checkPamset pamset) "conc_run" (.bool i.concRun))
      d0.nystart es d0.nyend)
    (hc : construct cops i pamset carb = .ok h0) (hd0 : d0.source = .handler h0)
    (ha : After cops tops d0 ps d) (hr : run cops tops d p = .ok (d1, t)) (hg : d1.source = .handler g)
    {z : ℤ} (hz1 : d0.nystart ≤ z) (hz2 : z ≤ d0.nyend) :
    ∃ emis a b c fb luc sun r, RunYear cops i es d0.nystart d0.nyend h0 g emis a b c fb luc sun r z ∧
      d0.luc[(z - d0.nystart).toNat]? = some luc ∧ d0.sun[(z - d0.nystart).toNat]? = some sun := by
  obtain ⟨h, emis, tr, H, -, -, -, -, -, hy⟩ := run_years law ht hc hd0 ha hr hg
  obtain ⟨b, luc, sun, r, values, vn, vs, Y, -, h1, h2⟩ := hy z hz1 hz2
  exact ⟨emis, H z, b, H (z + 1), _, luc, sun, r, Y, h1, h2⟩

end
end Verif.Props
