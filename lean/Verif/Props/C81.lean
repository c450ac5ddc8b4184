import Verif.Props.C40_C41_C57
import Verif.Props.C29_C32
import Verif.Props.C06_run
import Verif.Props.C63_udm
import Verif.Props.C78
import Verif.Model.ThermalInst

/-!
# C81 — the series a run reports are those of the chosen thermal model

Every result series is the column of that name of the thermal model stepped from rest through the forcings of the run,
so what is proved about the thermal models holds for the results of runs.
-/

namespace Verif.Props
open Verif.Py Verif.Py.Dict Verif.Model Verif.Model.Handler Verif.Model.Driver Verif.Model.ThermalInst Verif.Spec

section
variable {F κ : Type} [Add F] [Sub F] [Mul F] [Div F] [Neg F] [OfScientific F] [LT F] [DecidableLT F] [MathFn F]

/-- The forcings `f` are those of the years of a run: computed in order from the reset source, each year with the
thermal output `prev` of the year before (none in the first year); each is reported as the total of its year. -/
structure ForcedBy (cops : CarbonOps F κ) (d d' : Driver F κ) (p : RunPams F) (f : ℕ → YearForcing F)
    (prev : ℕ → Option (Dict F)) : Prop where
  chain : ∃ src : ℕ → Source F κ, resetSource cops d.source p.emiconc p.carbon = .ok (src 0) ∧
    d'.source = src (d.nyend - d.nystart + 1).toNat ∧
    ∀ n, n < (d.nyend - d.nystart + 1).toNat →
      yearForcing cops d (src n) (prev n) (d.nystart + n) = .ok (f n, src (n + 1))
  total : d'.results.get? "Total_forcing" =
    some ((List.range (d.nyend - d.nystart + 1).toNat).map (fun n => (f n).forc))

theorem series_list {d : Driver F κ} {o : String} {g : ℤ → F} (h : YearSeries d o (fun y v => v = g y)) :
    d.results.get? o = some ((List.range (d.nyend - d.nystart + 1).toNat).map (fun n : ℕ => g (d.nystart + n))) := by
  obtain ⟨a, h1, h2, h3⟩ := h
  rw [h1, Option.some.injEq]
  apply List.ext_getElem?
  intro n
  by_cases hn : n < (d.nyend - d.nystart + 1).toNat
  · obtain ⟨v, h4, h5⟩ := h3 (d.nystart + n) (by omega) (by omega)
    rw [show (d.nystart + (n : ℤ) - d.nystart).toNat = n by omega] at h4
    rw [h4, h5, List.getElem?_map, List.getElem?_range hn, Option.map_some]
  · rw [List.getElem?_eq_none (by omega), List.getElem?_eq_none (by simpa using hn)]

theorem YearSeries.imp {d : Driver F κ} {o : String} {P Q : ℤ → F → Prop} (h : YearSeries d o P)
    (hPQ : ∀ y v, d.nystart ≤ y → y ≤ d.nyend → P y v → Q y v) : YearSeries d o Q := by
  obtain ⟨a, h1, h2, h3⟩ := h
  refine ⟨a, h1, h2, fun y e1 e2 => ?_⟩
  obtain ⟨v, h4, h5⟩ := h3 y e1 e2
  exact ⟨v, h4, hPQ y v e1 e2 h5⟩

theorem two_layer_run_snoc (p : TwoLayer.Pams F) (ys : List (TwoLayer.Year F)) (y : TwoLayer.Year F) :
    ∀ st, TwoLayer.run p st (ys ++ [y]) =
      let r := TwoLayer.run p st ys
      let e := TwoLayer.energyBudget p (TwoLayer.startYear p r.1 y.w_aero) y.nh y.sh y.vn y.vs
      (e.1, r.2 ++ [e.2]) := by
  induction ys with
  | nil => intro st; rfl
  | cons z ys ih =>
    intro st
    rw [List.cons_append]
    simp only [TwoLayer.run, ih, List.cons_append]

theorem udm_run_snoc {solve : UDM.Solver F} {ys : List (UDM.Year F)} {y : UDM.Year F} {os : List (UDM.Out F)}
    {o : UDM.Out F} {m1 m2 : UDM.Model F} : ∀ {m}, UDM.run solve m ys = .ok (os, m1) →
      UDM.energyBudget solve (UDM.setFeedback m1 y.w_aero) y.fn y.fs y.vn y.vs = .ok (o, m2) →
      UDM.run solve m (ys ++ [y]) = .ok (os ++ [o], m2) := by
  induction ys generalizing os with
  | nil =>
    intro m h1 h2
    simp only [UDM.run, Except.ok.injEq, Prod.mk.injEq] at h1
    obtain ⟨rfl, rfl⟩ := h1
    simp only [List.nil_append, UDM.run, h2, bind_ok, pure_ok]
  | cons z ys ih =>
    intro m h1 h2
    simp only [UDM.run, bind_eq_ok, pure_ok, Except.ok.injEq, Prod.mk.injEq] at h1
    obtain ⟨r, hr, ⟨os', m3⟩, hs, rfl, rfl⟩ := h1
    simp only [List.cons_append, UDM.run, hr, bind_ok, ih hs h2, pure_ok]

/-- **C81**, two-layer model, every source of forcing, every history, every number type: the run creates the model with
its parameters, at rest, and steps it through the forcings of the run (with the volcanic rows of the driver); every
series of the results is the list of that quantity over the years. -/
theorem C81_two_layer {cops : CarbonOps F κ} {d d' : Driver F κ} {p : RunPams F}
    {t' : TwoLayer.Pams F × TwoLayer.State F} (h : run cops twoLayerOps d p = .ok (d', t')) :
    ∃ (years : List (TwoLayer.Year F)) (outs : List (TwoLayer.Out F)) (f : ℕ → YearForcing F),
      twoLayerPams (cutAndCheckPamset twoLayerRequired (p.udm.getD []) []) = .ok t'.1 ∧
      TwoLayer.run t'.1 (TwoLayer.init t'.1) years = (t'.2, outs) ∧
      years.length = (d.nyend - d.nystart + 1).toNat ∧
      (∀ n, n < years.length → ∃ vn vs, d.volcN[n]? = some vn ∧ d.volcS[n]? = some vs ∧
        years[n]? = some ⟨some (f n).wAero, (f n).fn, (f n).fs, vn, vs⟩) ∧
      ForcedBy cops d d' p f (fun n => if n = 0 then none else outs[n - 1]?.map outDict) ∧
      d'.results.get? "dT_glob" = some (outs.map (·.dtemp)) ∧
      d'.results.get? "dT_fast" = some (outs.map (·.dtemp_fast)) ∧
      d'.results.get? "dT_slow" = some (outs.map (·.dtemp_slow)) ∧
      d'.results.get? "RIB_glob" = some (outs.map (·.RIB)) ∧
      d'.results.get? "OHC_MIXED" = some (outs.map (·.OHC_MIXED)) ∧
      d'.results.get? "OHC_DEEP" = some (outs.map (·.OHC_DEEP)) ∧
      d'.results.get? "OHC700" = some (outs.map (·.OHC700)) ∧
      d'.results.get? "OHCTOT" = some (outs.map (·.OHCTOT)) := by
  have hnd : ((twoLayerOps (F := F)).outputs.map Prod.fst ++ forcOutputList).Nodup := by
    simp [twoLayerOps, twoLayerOutputs, forcOutputList]
  obtain ⟨st, src, f, vals, hcr, hsrc, hlast, hsf, hys, hye, hyear, hout, htot, -⟩ := C40_run hnd h
  have hq : twoLayerPams (cutAndCheckPamset twoLayerRequired (p.udm.getD []) []) = .ok (st d.nystart).1 ∧
      (st d.nystart).2 = TwoLayer.init (st d.nystart).1 := by
    have hcr' : twoLayerCreate p.udm = .ok (st d.nystart) := hcr
    unfold twoLayerCreate at hcr'
    rw [bind_eq_ok] at hcr'
    obtain ⟨q, h1, h2⟩ := hcr'
    rw [pure_ok, Except.ok.injEq] at h2
    rw [← h2]
    exact ⟨h1, rfl⟩
  set q := (st d.nystart).1 with hqdef
  have hex : ∀ y, ∃ vn vs, d.nystart ≤ y → y ≤ d.nyend →
      d.volcN[(y - d.nystart).toNat]? = some vn ∧ d.volcS[(y - d.nystart).toNat]? = some vs ∧
      vals y = outDict (TwoLayer.energyBudget (st y).1 (TwoLayer.setFeedback (st y).1 (st y).2 (f y).wAero)
        (f y).fn (f y).fs vn vs).2 ∧
      st (y + 1) = ((st y).1, (TwoLayer.energyBudget (st y).1 (TwoLayer.setFeedback (st y).1 (st y).2 (f y).wAero)
        (f y).fn (f y).fs vn vs).1) := by
    intro y
    by_cases hy : d.nystart ≤ y ∧ y ≤ d.nyend
    · obtain ⟨-, vn, vs, e1, e2, e3⟩ := hyear y hy.1 hy.2
      refine ⟨vn, vs, fun _ _ => ⟨rowOf_some e1, rowOf_some e2, ?_⟩⟩
      simp only [twoLayerOps] at e3
      split at e3
      · rw [Except.ok.injEq, Prod.mk.injEq] at e3
        exact ⟨e3.1.symm, e3.2.symm⟩
      · cases e3
    · exact ⟨[], [], fun a b => absurd ⟨a, b⟩ hy⟩
  choose vn vs hv using hex
  let Y : ℤ → TwoLayer.Year F := fun y => ⟨some (f y).wAero, (f y).fn, (f y).fs, vn y, vs y⟩
  let O : ℤ → TwoLayer.Out F := fun y => (TwoLayer.energyBudget q (TwoLayer.setFeedback q (st y).2 (f y).wAero)
    (f y).fn (f y).fs (vn y) (vs y)).2
  have hind : ∀ n : ℕ, n ≤ (d.nyend - d.nystart + 1).toNat → (st (d.nystart + n)).1 = q ∧
      TwoLayer.run q (TwoLayer.init q) ((List.range n).map (fun k : ℕ => Y (d.nystart + k))) =
        ((st (d.nystart + n)).2, (List.range n).map (fun k : ℕ => O (d.nystart + k))) := by
    intro n
    induction n with
    | zero =>
      intro _
      simp only [Nat.cast_zero, add_zero, List.range_zero, List.map_nil, TwoLayer.run]
      exact ⟨rfl, by rw [hq.2]⟩
    | succ n ih =>
      intro hn
      obtain ⟨i1, i2⟩ := ih (by omega)
      obtain ⟨-, -, -, e4⟩ := hv (d.nystart + n) (by omega) (by omega)
      have e5 : d.nystart + ((n + 1 : ℕ) : ℤ) = d.nystart + n + 1 := by push_cast; ring
      rw [i1] at e4
      rw [e5, e4]
      refine ⟨rfl, ?_⟩
      rw [List.range_succ, List.map_append, List.map_cons, List.map_nil, two_layer_run_snoc, i2, List.map_append,
        List.map_cons, List.map_nil]
      rfl
  have hN : d.nystart - 1 ≤ d.nyend := by
    obtain ⟨tr, ht⟩ := run_trace h
    have := (initialise_spec (startRun_spec ht.start).1).1
    omega
  have hfin := hind _ le_rfl
  have e6 : d.nystart + ((d.nyend - d.nystart + 1).toNat : ℤ) = d.nyend + 1 := by omega
  rw [e6, ← hlast] at hfin
  have hvals : ∀ y, d.nystart ≤ y → y ≤ d.nyend → vals y = outDict (O y) := by
    intro y h1 h2
    have e := (hv y h1 h2).2.2.1
    have hk := (hind (y - d.nystart).toNat (by omega)).1
    rw [show d.nystart + ((y - d.nystart).toNat : ℤ) = y by omega] at hk
    rw [hk] at e
    exact e
  have hser : ∀ (o : String × String) (g : TwoLayer.Out F → F), o ∈ twoLayerOutputs →
      (∀ x, (outDict x).get? o.2 = some (g x)) →
      d'.results.get? o.1 = some (((List.range (d.nyend - d.nystart + 1).toNat).map (fun k : ℕ => O (d.nystart + k))).map g) := by
    intro o g ho hg
    have hs := series_list (g := fun y => g (O y)) ((hout o ho).imp (by
      intro y v h1 h2 hP
      rw [hys] at h1
      rw [hye] at h2
      rw [hvals y h1 h2, hg, Option.some.injEq] at hP
      exact hP.symm))
    rw [hs, hys, hye, List.map_map]
    rfl
  refine ⟨(List.range (d.nyend - d.nystart + 1).toNat).map (fun k : ℕ => Y (d.nystart + k)),
    (List.range (d.nyend - d.nystart + 1).toNat).map (fun k : ℕ => O (d.nystart + k)), fun n : ℕ => f (d.nystart + n),
    ?_, ?_, by simp, ?_, ⟨⟨fun n : ℕ => src (d.nystart + n), ?_, ?_, ?_⟩, ?_⟩, ?_⟩
  · rw [hfin.1]; exact hq.1
  · rw [hfin.1]; exact hfin.2
  · intro n hn
    simp only [List.length_map, List.length_range] at hn
    obtain ⟨e1, e2, -⟩ := hv (d.nystart + n) (by omega) (by omega)
    rw [show (d.nystart + (n : ℤ) - d.nystart).toNat = n by omega] at e1 e2
    exact ⟨_, _, e1, e2, by rw [List.getElem?_map, List.getElem?_range hn, Option.map_some]⟩
  · simpa using hsrc
  · beta_reduce; rw [e6]; exact hsf
  · intro n hn
    have := (hyear (d.nystart + n) (by omega) (by omega)).1
    beta_reduce
    rw [show d.nystart + ((n + 1 : ℕ) : ℤ) = d.nystart + n + 1 by push_cast; ring]
    rw [← this]
    by_cases hn0 : n = 0
    · subst hn0
      simp
    · rw [if_neg hn0, if_neg (by omega : ¬ d.nystart + (n : ℤ) = d.nystart), List.getElem?_map,
        List.getElem?_range (by omega), Option.map_some, Option.map_some,
        hvals (d.nystart + n - 1) (by omega) (by omega),
        show d.nystart + ((n - 1 : ℕ) : ℤ) = d.nystart + n - 1 by omega]
  · have hs := series_list (g := fun y => (f y).forc) htot
    rw [hs, hys, hye]
  · refine ⟨hser ("dT_glob", "dtemp") _ (by simp [twoLayerOutputs]) (fun _ => rfl),
      hser ("dT_fast", "dtemp_fast") _ (by simp [twoLayerOutputs]) (fun _ => rfl),
      hser ("dT_slow", "dtemp_slow") _ (by simp [twoLayerOutputs]) (fun _ => rfl),
      hser ("RIB_glob", "RIB") _ (by simp [twoLayerOutputs]) (fun _ => rfl),
      hser ("OHC_MIXED", "OHC_MIXED") _ (by simp [twoLayerOutputs]) (fun _ => rfl),
      hser ("OHC_DEEP", "OHC_DEEP") _ (by simp [twoLayerOutputs]) (fun _ => rfl),
      hser ("OHC700", "OHC700") _ (by simp [twoLayerOutputs]) (fun _ => rfl),
      hser ("OHCTOT", "OHCTOT") _ (by simp [twoLayerOutputs]) (fun _ => rfl)⟩

/-- **C81**, upwelling-diffusion model, every tridiagonal solver: likewise, in all fourteen of its series. -/
theorem C81_diffusion {solve : UDM.Solver F} {cops : CarbonOps F κ} {d d' : Driver F κ} {p : RunPams F}
    {m : UDM.Model F} (h : run cops (udmOps solve) d p = .ok (d', m)) :
    ∃ (q : UDM.Pams F) (m0 : UDM.Model F) (years : List (UDM.Year F)) (outs : List (UDM.Out F)) (f : ℕ → YearForcing F),
      udmPams (cutAndCheckPamset udmRequired (p.udm.getD []) []) = .ok q ∧ UDM.create q = .ok m0 ∧
      UDM.run solve m0 years = .ok (outs, m) ∧
      years.length = (d.nyend - d.nystart + 1).toNat ∧
      (∀ n, n < years.length → ∃ vn vs, d.volcN[n]? = some vn ∧ d.volcS[n]? = some vs ∧
        years[n]? = some ⟨(f n).wAero, (f n).fn, (f n).fs, vn, vs⟩) ∧
      ForcedBy cops d d' p f (fun n => if n = 0 then none else outs[n - 1]?.map udmOutDict) ∧
      d'.results.get? "RIB_glob" = some (outs.map (·.RIB)) ∧
      d'.results.get? "RIB_N" = some (outs.map (·.RIBN)) ∧
      d'.results.get? "RIB_S" = some (outs.map (·.RIBS)) ∧
      d'.results.get? "dT_glob" = some (outs.map (·.dtemp)) ∧
      d'.results.get? "dT_NH" = some (outs.map (·.dtempnh)) ∧
      d'.results.get? "dT_SH" = some (outs.map (·.dtempsh)) ∧
      d'.results.get? "dT_glob_air" = some (outs.map (·.dtemp_air)) ∧
      d'.results.get? "dT_NH_air" = some (outs.map (·.dtempnh_air)) ∧
      d'.results.get? "dT_SH_air" = some (outs.map (·.dtempsh_air)) ∧
      d'.results.get? "dT_glob_sea" = some (outs.map (·.dtemp_sea)) ∧
      d'.results.get? "dT_NH_sea" = some (outs.map (·.dtempnh_sea)) ∧
      d'.results.get? "dT_SHsea" = some (outs.map (·.dtempsh_sea)) ∧
      d'.results.get? "OHC700" = some (outs.map (·.OHC700)) ∧
      d'.results.get? "OHCTOT" = some (outs.map (·.OHCTOT)) := by
  have hnd : ((udmOps solve).outputs.map Prod.fst ++ forcOutputList).Nodup := by
    simp [udmOps, udmOutputs, forcOutputList]
  obtain ⟨st, src, f, vals, hcr, hsrc, hlast, hsf, hys, hye, hyear, hout, htot, -⟩ := C40_run hnd h
  obtain ⟨q, hq1, hq2⟩ : ∃ q, udmPams (cutAndCheckPamset udmRequired (p.udm.getD []) []) = .ok q ∧
      UDM.create q = .ok (st d.nystart) := by
    have hcr' : udmCreate p.udm = .ok (st d.nystart) := hcr
    unfold udmCreate at hcr'
    rw [bind_eq_ok] at hcr'
    exact hcr'
  have hex : ∀ y, ∃ vn vs o, d.nystart ≤ y → y ≤ d.nyend →
      d.volcN[(y - d.nystart).toNat]? = some vn ∧ d.volcS[(y - d.nystart).toNat]? = some vs ∧
      vals y = udmOutDict o ∧
      UDM.energyBudget solve (UDM.setFeedback (st y) (f y).wAero) (f y).fn (f y).fs vn vs = .ok (o, st (y + 1)) := by
    intro y
    by_cases hy : d.nystart ≤ y ∧ y ≤ d.nyend
    · obtain ⟨-, vn, vs, e1, e2, e3⟩ := hyear y hy.1 hy.2
      simp only [udmOps, bind_eq_ok, pure_ok, Except.ok.injEq, Prod.mk.injEq] at e3
      obtain ⟨⟨o, m2⟩, e4, e5, e6⟩ := e3
      refine ⟨vn, vs, o, fun _ _ => ⟨rowOf_some e1, rowOf_some e2, e5.symm, ?_⟩⟩
      rw [e4, ← e6]
    · exact ⟨[], [], ⟨0.0, 0.0, 0.0, fun _ => 0.0, fun _ => 0.0, 0.0, 0.0, 0.0, 0.0, 0.0, 0.0, 0.0, 0.0, 0.0, 0.0, 0.0,
        0.0⟩, fun a b => absurd ⟨a, b⟩ hy⟩
  choose vn vs O hv using hex
  let Y : ℤ → UDM.Year F := fun y => ⟨(f y).wAero, (f y).fn, (f y).fs, vn y, vs y⟩
  have hind : ∀ n : ℕ, n ≤ (d.nyend - d.nystart + 1).toNat →
      UDM.run solve (st d.nystart) ((List.range n).map (fun k : ℕ => Y (d.nystart + k))) =
        .ok ((List.range n).map (fun k : ℕ => O (d.nystart + k)), st (d.nystart + n)) := by
    intro n
    induction n with
    | zero =>
      intro _
      simp only [Nat.cast_zero, add_zero, List.range_zero, List.map_nil, UDM.run]
    | succ n ih =>
      intro hn
      obtain ⟨-, -, -, e4⟩ := hv (d.nystart + n) (by omega) (by omega)
      rw [show d.nystart + ((n + 1 : ℕ) : ℤ) = d.nystart + n + 1 by push_cast; ring,
        List.range_succ, List.map_append, List.map_cons, List.map_nil, List.map_append, List.map_cons, List.map_nil]
      exact udm_run_snoc (ih (by omega)) e4
  have hN : d.nystart - 1 ≤ d.nyend := by
    obtain ⟨tr, ht⟩ := run_trace h
    have := (initialise_spec (startRun_spec ht.start).1).1
    omega
  have hfin := hind _ le_rfl
  have e6 : d.nystart + ((d.nyend - d.nystart + 1).toNat : ℤ) = d.nyend + 1 := by omega
  rw [e6, ← hlast] at hfin
  have hser : ∀ (o : String × String) (g : UDM.Out F → F), o ∈ udmOutputs →
      (∀ x, (udmOutDict x).get? o.2 = some (g x)) →
      d'.results.get? o.1 = some (((List.range (d.nyend - d.nystart + 1).toNat).map (fun k : ℕ => O (d.nystart + k))).map g) := by
    intro o g ho hg
    have hs := series_list (g := fun y => g (O y)) ((hout o ho).imp (by
      intro y v h1 h2 hP
      rw [hys] at h1
      rw [hye] at h2
      rw [(hv y h1 h2).2.2.1, hg, Option.some.injEq] at hP
      exact hP.symm))
    rw [hs, hys, hye, List.map_map]
    rfl
  refine ⟨q, st d.nystart, (List.range (d.nyend - d.nystart + 1).toNat).map (fun k : ℕ => Y (d.nystart + k)),
    (List.range (d.nyend - d.nystart + 1).toNat).map (fun k : ℕ => O (d.nystart + k)), fun n : ℕ => f (d.nystart + n),
    hq1, hq2, hfin, by simp, ?_, ⟨⟨fun n : ℕ => src (d.nystart + n), ?_, ?_, ?_⟩, ?_⟩, ?_⟩
  · intro n hn
    simp only [List.length_map, List.length_range] at hn
    obtain ⟨e1, e2, -⟩ := hv (d.nystart + n) (by omega) (by omega)
    rw [show (d.nystart + (n : ℤ) - d.nystart).toNat = n by omega] at e1 e2
    exact ⟨_, _, e1, e2, by rw [List.getElem?_map, List.getElem?_range hn, Option.map_some]⟩
  · simpa using hsrc
  · beta_reduce; rw [e6]; exact hsf
  · intro n hn
    have := (hyear (d.nystart + n) (by omega) (by omega)).1
    beta_reduce
    rw [show d.nystart + ((n + 1 : ℕ) : ℤ) = d.nystart + n + 1 by push_cast; ring]
    rw [← this]
    by_cases hn0 : n = 0
    · subst hn0
      simp
    · rw [if_neg hn0, if_neg (by omega : ¬ d.nystart + (n : ℤ) = d.nystart), List.getElem?_map,
        List.getElem?_range (by omega), Option.map_some, Option.map_some,
        (hv (d.nystart + n - 1) (by omega) (by omega)).2.2.1,
        show d.nystart + ((n - 1 : ℕ) : ℤ) = d.nystart + n - 1 by omega]
  · have hs := series_list (g := fun y => (f y).forc) htot
    rw [hs, hys, hye]
  · refine ⟨hser ("RIB_glob", "RIB") _ (by simp [udmOutputs]) (fun _ => rfl),
      hser ("RIB_N", "RIBN") _ (by simp [udmOutputs]) (fun _ => rfl),
      hser ("RIB_S", "RIBS") _ (by simp [udmOutputs]) (fun _ => rfl),
      hser ("dT_glob", "dtemp") _ (by simp [udmOutputs]) (fun _ => rfl),
      hser ("dT_NH", "dtempnh") _ (by simp [udmOutputs]) (fun _ => rfl),
      hser ("dT_SH", "dtempsh") _ (by simp [udmOutputs]) (fun _ => rfl),
      hser ("dT_glob_air", "dtemp_air") _ (by simp [udmOutputs]) (fun _ => rfl),
      hser ("dT_NH_air", "dtempnh_air") _ (by simp [udmOutputs]) (fun _ => rfl),
      hser ("dT_SH_air", "dtempsh_air") _ (by simp [udmOutputs]) (fun _ => rfl),
      hser ("dT_glob_sea", "dtemp_sea") _ (by simp [udmOutputs]) (fun _ => rfl),
      hser ("dT_NH_sea", "dtempnh_sea") _ (by simp [udmOutputs]) (fun _ => rfl),
      hser ("dT_SHsea", "dtempsh_sea") _ (by simp [udmOutputs]) (fun _ => rfl),
      hser ("OHC700", "OHC700") _ (by simp [udmOutputs]) (fun _ => rfl),
      hser ("OHCTOT", "OHCTOT") _ (by simp [udmOutputs]) (fun _ => rfl)⟩

end
/-! ## The hypotheses are met -/

section
open Verif.Exec Verif.Model.CarbonInst Verif.Lemmas.Tridiag

/-- The last of three runs with the two-layer model: six years. -/
example (b : Bool) : ∃ (d1 : Driver ℝ (BoxM ℝ)) (q : TwoLayer.Pams ℝ) (years : List (TwoLayer.Year ℝ)),
    years.length = 6 ∧
    d1.results.get? "dT_glob" = some ((TwoLayer.run q (TwoLayer.init q) years).2.map (·.dtemp)) := by
  obtain ⟨h0, d, d1, t, g, hc, ht, ha, hr, hg⟩ := rich_case b
  obtain ⟨h, hd, -, -, hsame⟩ := after_spec yearLaw_real (rfl : (richDriver h0).source = .handler h0) ha (fun _ => True)
    trivial (fun _ _ _ _ _ _ _ => trivial) (fun _ _ _ _ _ _ => trivial)
  obtain ⟨years, outs, f, -, h2, h3, -, -, h6, -⟩ := C81_two_layer hr
  refine ⟨d1, t.1, years, ?_, ?_⟩
  · rw [h3, hsame]; rfl
  · rw [h2]; exact h6

/-- The second of two runs with the diffusion model. -/
example (b : Bool) : ∃ (d d1 : Driver ℝ (IR ℝ)) (m m0 : UDM.Model ℝ) (years : List (UDM.Year ℝ)) (outs : List (UDM.Out ℝ)),
    run irOps (udmOps exactSolver) d ⟨some flatSet, none, some [("beta_f", .flt 1)]⟩ = .ok (d1, m) ∧
    UDM.create C35.flatPams = .ok m0 ∧ UDM.run exactSolver m0 years = .ok (outs, m) ∧
    d1.results.get? "dT_NH_sea" = some (outs.map (·.dtempnh_sea)) := by
  obtain ⟨h0, d1, hc, ha⟩ := rich_after_diffusion b
  obtain ⟨ps, hps⟩ : ∃ ps : List (RunPams ℝ), [⟨some flatSet, none, none⟩, ⟨some flatSet, none, some [("beta_f", .flt 1)]⟩] = ps :=
    ⟨_, rfl⟩
  rw [hps] at ha
  cases ha with
  | fresh => simp at hps
  | @next ps p d d1 t hprev hr =>
    have h2 : ([⟨some flatSet, none, none⟩, ⟨some flatSet, none, some [("beta_f", .flt 1)]⟩] : List (RunPams ℝ)) =
      [⟨some flatSet, none, none⟩] ++ [⟨some flatSet, none, some [("beta_f", .flt 1)]⟩] := rfl
    rw [h2] at hps
    obtain ⟨e1, e2⟩ := List.append_inj' hps rfl
    rw [List.cons.injEq] at e2
    obtain ⟨q, m0, years, outs, f, k1, k2, k3, -, -, -, -, -, -, -, -, -, -, -, -, -, k4, -⟩ := C81_diffusion hr
    rw [← e2.1] at k1 hr
    rw [flat_set, Except.ok.injEq] at k1
    subst k1
    exact ⟨d, d1, t, m0, years, outs, hr, k2, k3, k4⟩

end
end Verif.Props
