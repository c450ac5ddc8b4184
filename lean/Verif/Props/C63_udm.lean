import Verif.Props.C63
import Verif.Props.C35
import Verif.Model.ThermalInst

/-!
# C63 for the upwelling-diffusion model

With complete inputs no run fails. The diffusion model solves a tridiagonal system in every sub-step; that it can always
be solved is C35, for a constant upwelling rate in the physical range.
-/

namespace Verif.Props
open Verif.Py Verif.Py.Dict Verif.Model Verif.Model.Handler Verif.Model.Driver Verif.Model.ThermalInst
  Verif.Model.CarbonInst Verif.Spec Verif.Spec.Tridiag Verif.Spec.Diffusion Verif.Lemmas.UDM Verif.Lemmas.Tridiag

/-- Parameters of the diffusion model for which no year can fail: physically meaningful, positive sensitivity, constant
upwelling in the physical range, no extra aerosol feedback, and layers that reach 700 m. -/
structure SafeDiffusion (p : UDM.Pams ℝ) : Prop where
  physical : Physical p
  sensitivity : 0 < p.lambda
  steady : p.threstemp = 0
  ordered : Ordered p p.W
  aerosol : p.delta_lambda_aero = 0
  deep : C35.Deep700 p

theorem udm_works {solve : UDM.Solver ℝ} (hs : Exact solve) {udm : Option (Dict (PyVal ℝ))} {p : UDM.Pams ℝ}
    (hp : udmPams (cutAndCheckPamset udmRequired (udm.getD []) []) = .ok p) (h : SafeDiffusion p) :
    ThermalWorks (udmOps solve) udm := by
  refine ⟨fun m => Ready m ∧ m.p = p ∧ 0 < m.rlamda, ⟨UDM.init p, ?_, init_ready p, rfl, ?_⟩, ?_, ?_⟩
  · show udmCreate udm = _
    unfold udmCreate
    rw [hp, bind_ok]
    exact C35.create_of h.physical h.sensitivity
  · show (0 : ℝ) < 1.0 / p.lambda
    rw [sci1]
    exact one_div_pos.2 h.sensitivity
  · rintro m w ⟨h1, h2, h3⟩
    have e : UDM.setFeedback m w = m := by
      unfold UDM.setFeedback
      have e0 : isEq m.p.delta_lambda_aero (0.0 : ℝ) = true := by
        rw [h2, h.aerosol, sci0, misEq]
      rw [if_pos e0]
    change Ready (UDM.setFeedback m w) ∧ (UDM.setFeedback m w).p = p ∧ 0 < (UDM.setFeedback m w).rlamda
    rw [e]
    exact ⟨h1, h2, h3⟩
  · rintro m fn fs vn vs ⟨h1, rfl, h3⟩ hl hne
    obtain ⟨⟨o, m'⟩, hr⟩ := C35.energyBudget_exists hs h1 (C35.phys h.physical h3) h.steady h.ordered h.deep (fn := fn) (fs := fs) hne
      hl.le
    refine ⟨udmOutDict o, m', ?_, ?_, ?_⟩
    · show (do let r ← UDM.energyBudget solve m fn fs vn vs; pure (udmOutDict r.1, r.2)) = _
      rw [hr, bind_ok]; rfl
    · obtain ⟨r, _, _, e1, e2, _⟩ := energyBudget_ok hr
      have sy := subSteps_same hs h1 e1
      rw [e2]
      exact ⟨sy.ready.withTemps r.1.tn r.1.ts fn fs, sy.p, by show 0 < r.1.rlamda; rw [sy.rlamda]; exact h3⟩
    · intro q hq
      have : q ∈ udmOutputs := hq
      unfold udmOutputs at this
      simp only [List.mem_cons, List.not_mem_nil, or_false] at this
      rcases this with rfl | rfl | rfl | rfl | rfl | rfl | rfl | rfl | rfl | rfl | rfl | rfl | rfl | rfl <;>
        exact ⟨_, rfl⟩

/-- C63 for the default carbon cycle and the diffusion model (exact arithmetic, constant upwelling): with complete inputs
the model is constructed and every sequence of runs completes. -/
theorem C63_diffusion {solve : UDM.Solver ℝ} (hs : Exact solve) {i : Inputs ℝ} {pamset carb : Option (Dict (PyVal ℝ))}
    {ns es ne ref n : ℤ}
    (hg : CompleteGases i.gas) (ht : CompleteTables i ns es ne ref)
    (h1 : pamI (Factory.checkPamset pamset) "nystart" = .ok ns)
    (h2 : pamI (Factory.checkPamset pamset) "nyend" = .ok ne)
    (h3 : pamI (Factory.checkPamset pamset) "emstart" = .ok es)
    (h4 : pamI (Factory.checkPamset pamset) "idtm" = .ok n) (hn : 0 < n)
    (hj : OneComponent i.gas pamset) (hcarb : ∀ p, carb = some p → NoResponse p) :
    ∃ h0, construct irOps i pamset carb = .ok h0 ∧
      ∀ (d0 : Driver ℝ (IR ℝ)) (ps : List (RunPams ℝ)), d0.source = .handler h0 → d0.nystart = ns →
        d0.nyend = ne → CompleteSeries d0 →
        (∀ p ∈ ps, (∃ q, udmPams (cutAndCheckPamset udmRequired (p.udm.getD []) []) = .ok q ∧ SafeDiffusion q) ∧
          pamI (Factory.checkPamset p.emiconc) "ref_yr" = .ok ref ∧
          OneComponent i.gas p.emiconc ∧ ∀ q, p.carbon = some q → NoResponse q) →
        ∃ d, After irOps (udmOps solve) d0 ps d := by
  have hcp : PlainIR (Dict.set (carb.getD []) "preindustrial_co2_conc" (.flt (i.concIn.cell "CO2" ns))) := by
    apply NoResponse.plain
    intro key hk
    rcases (mem_keys_set _ _ _ _).1 hk with rfl | hk
    · exact ⟨by decide, by decide, by decide⟩
    · cases carb with
      | none => cases hk
      | some p => exact hcarb p rfl key hk
  obtain ⟨h0, hc, h⟩ := C63_completes (tops := udmOps solve) (carb := carb) yearLaw_real hg ht h1 h2 h3 hj
    (ir_creates hcp ht.order h1 h2 h4 hn)
    (ir_resets ht.order _ (fun p hp => by rw [Option.some.injEq] at hp; subst hp; exact hcp)) (ir_works ns ne)
  exact ⟨h0, hc, fun d0 ps hd hn he hs' hps => h d0 ps hd hn he hs' (fun p hp => by
    obtain ⟨⟨q, hq, hsafe⟩, h5, h6, h7⟩ := hps p hp
    exact ⟨udm_works hs hq hsafe, ir_resets ht.order _ (fun q hq => (h7 q hq).plain), h5, h6⟩)⟩

/-! ## The hypotheses are met: the default parameters with constant upwelling -/

section
open Verif.Exec

theorem flat_safe : SafeDiffusion C35.flatPams where
  physical := C35.flat_physical
  sensitivity := by simp only [C35.flatPams]; norm_num
  steady := rfl
  ordered := C35.flat_ordered
  aerosol := rfl
  deep := C35.flat_deep

/-- The parameter set that only sets the upwelling threshold to zero. -/
noncomputable def flatSet : Dict (PyVal ℝ) := [("threstemp", .flt 0)]

theorem flat_set : udmPams (cutAndCheckPamset udmRequired ((some flatSet).getD []) []) = .ok C35.flatPams := by
  have h : udmPams (cutAndCheckPamset udmRequired ((some flatSet).getD []) []) =
      .ok { rlamdo := 15.0, akapa := 0.66, cpi := 0.21, W := 2.2, beto := 6.9, threstemp := 0, lambda := 0.61, mixed := 107.0,
            foan := 0.61, foas := 0.81, ebbeta := 0.0, lm := 40, ldtime := 12, ocean_efficacy := 1.0,
            delta_lambda_aero := 0.0 } := rfl
  rw [h, C35.flatPams, sci0, sci1]
  norm_num

/-- Two runs of the diffusion model with all kinds of gases, emission-driven or driven by concentrations. -/
theorem rich_after_diffusion (b : Bool) : ∃ h0 d, construct irOps (richInputs b) richPam none = .ok h0 ∧
    Spec.After irOps (udmOps exactSolver) (richDriver h0)
      [⟨some flatSet, none, none⟩, ⟨some flatSet, none, some [("beta_f", .flt 1)]⟩] d := by
  obtain ⟨h1, h2, h3, h4, h5⟩ := rich_pams
  obtain ⟨h0, hc, h⟩ := C63_diffusion exactSolver_exact (carb := none) rich_gases (rich_tables b) h1 h2 h3 h4 (by decide)
    (.absent (by decide)) (by simp)
  obtain ⟨d, hd⟩ := h (richDriver h0)
    [⟨some flatSet, none, none⟩, ⟨some flatSet, none, some [("beta_f", .flt 1)]⟩] rfl rfl rfl (rich_series h0) (by
    intro p hp
    simp only [List.mem_cons, List.not_mem_nil, or_false] at hp
    rcases hp with rfl | rfl
    · exact ⟨⟨_, flat_set, flat_safe⟩, h5, .absent (by decide), by simp⟩
    · refine ⟨⟨_, flat_set, flat_safe⟩, h5, .absent (by decide), ?_⟩
      intro q hq
      simp only [Option.some.injEq] at hq
      subst hq
      intro key hk
      simp only [Dict.keys, List.map_cons, List.map_nil, List.mem_cons, List.not_mem_nil, or_false] at hk
      subst hk
      exact ⟨by decide, by decide, by decide⟩)
  exact ⟨h0, d, hc, hd⟩

end
end Verif.Props
