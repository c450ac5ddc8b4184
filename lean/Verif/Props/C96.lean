import Verif.Lemmas.Co2
import Verif.Props.C94
import Verif.Props.C77
import Verif.Exec.Co2Run

/-!
# C96: more CO2

Two concentration-driven runs that differ in the prescribed concentrations of CO2 only.
-/

namespace Verif.Props
open Verif.Py Verif.Py.Dict Verif.Model Verif.Model.Handler Verif.Model.Driver Verif.Model.ThermalInst Verif.Spec
open Verif.Lemmas.OneGas (concRows prec_form)
open Verif.Lemmas.Co2
open Verif.Spec.Diffusion (Physical feedback Ordered Gentle)
open Verif.Spec.Tridiag (Exact)

variable {κ τ τ' : Type} {i i' : Inputs ℝ} {sc sn : ℝ}

/-- The part of the formula that depends on the distance from the start year does not take anything away from an increase. -/
theorem co2_slope {c c' c0 n n0 : ℝ} (h0 : 0 < c0) (hc : 0 < c) (hcc : c ≤ c') (h1 : |c - c0| ≤ 1500) (h2 : |c' - c0| ≤ 1500) :
    (5.36 - 0.00021 * ((n + n0) / 2)) * (Real.log c' - Real.log c) ≤ co2Forcing c' c0 n n0 - co2Forcing c c0 n n0 := by
  have hc' : 0 < c' := lt_of_lt_of_le hc hcc
  unfold co2Forcing
  rw [Real.log_div hc'.ne' h0.ne', Real.log_div hc.ne' h0.ne', ← sq_abs (c' - c0), ← sq_abs (c - c0)]
  have gpos : ∀ x : ℝ, 0 ≤ x → x ≤ 1500 → 0 ≤ 0.00072 * x - 0.00000024 * x ^ 2 := by
    intro x a b
    nlinarith
  have gmono : ∀ x z : ℝ, 0 ≤ x → x ≤ z → z ≤ 1500 → 0.00072 * x - 0.00000024 * x ^ 2 ≤ 0.00072 * z - 0.00000024 * z ^ 2 := by
    intro x z a b c
    nlinarith [mul_nonneg (sub_nonneg.2 b) (show (0 : ℝ) ≤ 3000 - x - z by linarith)]
  have hL : Real.log c ≤ Real.log c' := Real.log_le_log hc hcc
  have key : (0.00072 * |c - c0| - 0.00000024 * |c - c0| ^ 2) * (Real.log c - Real.log c0) ≤
      (0.00072 * |c' - c0| - 0.00000024 * |c' - c0| ^ 2) * (Real.log c' - Real.log c0) := by
    have p1 := gpos _ (abs_nonneg (c - c0)) h1
    have p2 := gpos _ (abs_nonneg (c' - c0)) h2
    rcases le_total c0 c with a | a
    · have b : Real.log c0 ≤ Real.log c := Real.log_le_log h0 a
      have m := gmono |c - c0| |c' - c0| (abs_nonneg _)
        (by rw [abs_of_nonneg (by linarith), abs_of_nonneg (by linarith)]; linarith) h2
      exact mul_le_mul m (by linarith) (by linarith) p2
    · have b : Real.log c ≤ Real.log c0 := Real.log_le_log hc a
      rcases le_total c0 c' with a' | a'
      · have b' : Real.log c0 ≤ Real.log c' := Real.log_le_log h0 a'
        exact le_trans (mul_nonpos_of_nonneg_of_nonpos p1 (by linarith)) (mul_nonneg p2 (by linarith))
      · have b' : Real.log c' ≤ Real.log c0 := Real.log_le_log hc' a'
        have m := gmono |c' - c0| |c - c0| (abs_nonneg _)
          (by rw [abs_of_nonpos (by linarith), abs_of_nonpos (by linarith)]; linarith) h1
        have := mul_le_mul m (show Real.log c0 - Real.log c' ≤ Real.log c0 - Real.log c by linarith) (by linarith) p1
        nlinarith
  nlinarith

/-- More CO2 never gives less forcing, overlap with N2O included. -/
theorem more_co2 {t t' : String → ℤ → ℝ} {ns ne y : ℤ} (hm : MoreCo2 t t' ns ne) (ho : ∀ c, c ≠ "CO2" → ∀ y, t' c y = t c y)
    (hsn : 0 ≤ sn) (hsc : sn ≤ 1.5 * sc) (h1 : ns ≤ y) (h2 : y ≤ ne) :
    0 ≤ co2Effect sc t t' ns y + overlapEffect sn t t' ns y := by
  have hne : ns ≤ ne := h1.trans h2
  have q0 := hm.pos ns le_rfl hne
  have q1 := hm.pos y h1 h2
  have q2 := hm.more y h1 h2
  have q3 := hm.top y h1 h2
  obtain ⟨q4, q5⟩ := hm.near y h1 h2
  obtain ⟨n1, n2⟩ := hm.n2o y h1 h2
  obtain ⟨n3, n4⟩ := hm.n2o ns le_rfl hne
  unfold co2Effect overlapEffect
  rw [hm.start, ho "N2O" (by decide), ho "N2O" (by decide), ho "CH4" (by decide), ho "CH4" (by decide)]
  have s := co2_slope (n := t "N2O" y) (n0 := t "N2O" ns) q0 q1 q2 q4 q5
  have hc' : 0 < t' "CO2" y := lt_of_lt_of_le q1 q2
  have hlog : (t' "CO2" y - t "CO2" y) / 5000 ≤ Real.log (t' "CO2" y) - Real.log (t "CO2" y) := by
    have a := Real.one_sub_inv_le_log_of_pos (div_pos hc' q1)
    rw [Real.log_div hc'.ne' q1.ne', inv_div] at a
    refine le_trans ?_ a
    rw [show (1 : ℝ) - t "CO2" y / t' "CO2" y = (t' "CO2" y - t "CO2" y) / t' "CO2" y by field_simp]
    exact div_le_div_of_nonneg_left (by linarith) hc' q3
  have hsq : Real.sqrt (t "N2O" y) ≤ 100 := by
    rw [show (100 : ℝ) = Real.sqrt 10000 by rw [show (10000 : ℝ) = 100 ^ 2 by norm_num, Real.sqrt_sq (by norm_num)]]
    exact Real.sqrt_le_sqrt n2
  have hsq0 := Real.sqrt_nonneg (t "N2O" ns)
  generalize Real.log (t' "CO2" y) - Real.log (t "CO2" y) = L at *
  have hd : 0 ≤ t' "CO2" y - t "CO2" y := by linarith
  have hL : 0 ≤ L := le_trans (by positivity) hlog
  have e1 : 3.26 * ((t' "CO2" y - t "CO2" y) / 5000) ≤
      co2Forcing (t' "CO2" y) (t "CO2" ns) (t "N2O" y) (t "N2O" ns) -
        co2Forcing (t "CO2" y) (t "CO2" ns) (t "N2O" y) (t "N2O" ns) := by
    refine le_trans ?_ s
    nlinarith
  have e2 : -(0.0004 * (t' "CO2" y - t "CO2" y)) ≤
      n2oForcing (t "N2O" y) (t "N2O" ns) (t' "CO2" y) (t "CO2" ns) (t "CH4" y) (t "CH4" ns) -
        n2oForcing (t "N2O" y) (t "N2O" ns) (t "CO2" y) (t "CO2" ns) (t "CH4" y) (t "CH4" ns) := by
    unfold n2oForcing
    generalize Real.sqrt (t "N2O" y) = a at *
    generalize Real.sqrt (t "N2O" ns) = b at *
    nlinarith [mul_nonneg hd (show (0 : ℝ) ≤ 100 - (a - b) by linarith)]
  generalize co2Forcing (t' "CO2" y) (t "CO2" ns) (t "N2O" y) (t "N2O" ns) = A at *
  generalize co2Forcing (t "CO2" y) (t "CO2" ns) (t "N2O" y) (t "N2O" ns) = B at *
  generalize n2oForcing (t "N2O" y) (t "N2O" ns) (t' "CO2" y) (t "CO2" ns) (t "CH4" y) (t "CH4" ns) = C at *
  generalize n2oForcing (t "N2O" y) (t "N2O" ns) (t "CO2" y) (t "CO2" ns) (t "CH4" y) (t "CH4" ns) = D at *
  have hsc0 : 0 ≤ sc := by linarith
  have f1 := mul_le_mul_of_nonneg_left e1 hsc0
  have f2 := mul_le_mul_of_nonneg_left e2 hsn
  have f3 := mul_le_mul_of_nonneg_right hsc hd
  nlinarith

/-- CO2 and N2O are not among the gases whose forcing is computed ahead. -/
theorem main_not_ahead {cops : CarbonOps ℝ κ} {pamset carb : Option (Dict (PyVal ℝ))} {h0 : Handler ℝ κ} {ns es ne : ℤ}
    (hgas : i.gas.keys.Nodup)
    (ht : RunTables i.concIn i.emis (Dict.set (Factory.checkPamset pamset) "conc_run" (.bool i.concRun)) ns es ne)
    (hc : construct cops i pamset carb = .ok h0) : ∀ t ∈ h0.prec.erf.cols, t ≠ "CO2" ∧ t ≠ "N2O" := by
  obtain ⟨emis', cl, br, he, ht2, hpre, hcg, hci, hce, hcp, hcy⟩ := constructed hc ht
  obtain ⟨hvg, -⟩ := mem_spicy hpre
  intro t htm
  rcases (Verif.Props.erf_cols_eq hgas hpre).2 t htm with ⟨a, -⟩ | rfl
  · obtain ⟨x, -, -, m1, m2, m3⟩ := (mem_vanilla hgas hvg t).1 a
    exact ⟨m1, by first | exact m2 | exact m3⟩
  · exact ⟨by decide, by decide⟩

section
variable {cops : CarbonOps ℝ κ} {d0 d d1 d0' d' d1' : Driver ℝ κ} {pamset carb : Option (Dict (PyVal ℝ))}
  {h0 h0' g g' : Handler ℝ κ} {es : ℤ} {ps : List (RunPams ℝ)} {p : RunPams ℝ}

/-- **C96.** Two instances whose inputs differ in the prescribed concentrations of CO2 only, with the same value in the start
year, driven by concentrations, new or after the same runs. For every run (any thermal model, perturbations and parameters,
without a request for a single component) and every year, the reported forcing of CO2 moves by the documented effect, that of
N2O by the documented effect of the overlap, the total by both, and every other reported forcing and every other reported
concentration is the same. -/
theorem C96_forcing {tops : ThermalOps ℝ τ} {tops' : ThermalOps ℝ τ'} {t : τ} {t' : τ'} (hi : OnlyConcOf "CO2" i i')
    (hgas : i.gas.keys.Nodup) (hx : Factors i.gas sc sn) (hcols : ∀ t ∈ ["CO2", "N2O", "CH4"], t ∈ i.concIn.cols)
    (hstart : i'.concIn.cell "CO2" d0.nystart = i.concIn.cell "CO2" d0.nystart)
    (ht : RunTables i.concIn i.emis (Dict.set (Factory.checkPamset pamset) "conc_run" (.bool i.concRun))
      d0.nystart es d0.nyend)
    (hout : (tops.outputs.map Prod.fst ++ forcOutputList).Nodup) (hout' : (tops'.outputs.map Prod.fst ++ forcOutputList).Nodup)
    (hc : construct cops i pamset carb = .ok h0) (hc' : construct cops i' pamset carb = .ok h0')
    (hd0 : d0.source = .handler h0) (hd0' : d0'.source = .handler h0') (hs : SameSetting d0 d0') (hj : NoJustOne pamset ps p)
    (ha : After cops tops d0 ps d) (ha' : After cops tops' d0' ps d') (hr : run cops tops d p = .ok (d1, t))
    (hr' : run cops tops' d' p = .ok (d1', t')) (hg : d1.source = .handler g) (hg' : d1'.source = .handler g')
    {y : ℤ} (hy1 : d0.nystart ≤ y) (hy2 : y ≤ d0.nyend) :
    (∃ tot, entry d1.results "Total_forcing" (y - d0.nystart).toNat = some tot ∧
      entry d1'.results "Total_forcing" (y - d0.nystart).toNat =
        some (tot + (co2Effect sc i.concIn.cell i'.concIn.cell d0.nystart y +
          overlapEffect sn i.concIn.cell i'.concIn.cell d0.nystart y))) ∧
    List.Forall₂ (fun c c' => c'.1 = c.1 ∧
        (c.1 = "CO2" → ∃ v, c.2 y = some v ∧ c'.2 y = some (v + co2Effect sc i.concIn.cell i'.concIn.cell d0.nystart y)) ∧
        (c.1 = "N2O" → ∃ v, c.2 y = some v ∧ c'.2 y = some (v + overlapEffect sn i.concIn.cell i'.concIn.cell d0.nystart y)) ∧
        (c.1 ≠ "CO2" → c.1 ≠ "N2O" → c.1 ≠ "Total_forcing" → c'.2 y = c.2 y))
      (reportForcing g d0.nystart) (reportForcing g' d0.nystart) ∧
    List.Forall₂ (fun c c' => c'.1 = c.1 ∧ (c.1 ≠ "CO2" → c'.2 y = c.2 y)) (reportConc g) (reportConc g') := by
  have P0 := construct_twin sc sn hi hgas ht hj.1 hstart hc hc'
  have hm : Main i sc sn := ⟨hx, hcols⟩
  obtain ⟨h, h', y0, s, s', P, n1, n2, S⟩ := after_twin hd0 hd0' hs hi hm P0 ha ha'
    (fun q hq => hj.2 q (List.mem_append_left _ hq))
  have hjp := hj.2 p (List.mem_append_right _ (List.mem_singleton.2 rfl))
  rw [← n1, ← n2] at P
  refine ⟨?_, ?_⟩
  · obtain ⟨st, src, f, vals, -, b1, -, -, -, -, b2, -, b3, -⟩ := C40_run hout hr
    obtain ⟨st', src', f', vals', -, b1', -, -, b4', b5', b2', -, b3', -⟩ := C40_run hout' hr'
    rw [s] at b1
    rw [s'] at b1'
    unfold resetSource at b1 b1'
    simp only [bind_eq_ok] at b1 b1'
    obtain ⟨m, e, b1⟩ := b1
    obtain ⟨m', e', b1'⟩ := b1'
    rw [pure_ok, Except.ok.injEq] at b1 b1'
    rw [S.first] at b1'
    have Q := P.reset hjp e e'
    have key := ((Q.chain hi hm (d := d) (d' := d') (cops := cops) rfl S.first S.luc S.sun (src := src) (src' := src')
      (f := f) (f' := f') b1.symm b1'.symm (fun y h1 h2 => (b2 y h1 h2).1)
      (fun y h1 h2 => (b2' y (by rw [S.first]; exact h1) (by rw [S.last]; exact h2)).1)).2 y (by omega) (by omega)).2.2
    obtain ⟨-, -, -, -, -, -, -, z⟩ := run_handler_spec s hr
    have z1 : d1.nystart = d0.nystart := by rw [z]; exact n1
    have z2 : d1.nyend = d0.nyend := by rw [z]; exact n2
    rw [S.first, n1] at b4'
    rw [S.last, n2] at b5'
    obtain ⟨a, a1, -, a3⟩ := b3
    obtain ⟨a', a1', -, a3'⟩ := b3'
    obtain ⟨w, w1, w2⟩ := a3 y (by omega) (by omega)
    obtain ⟨w', w1', w2'⟩ := a3' y (by omega) (by omega)
    rw [z1] at w1
    rw [b4'] at w1'
    refine ⟨w, by unfold entry; rw [a1]; exact w1, ?_⟩
    unfold entry
    rw [a1']
    show a'[(y - d0.nystart).toNat]? = _
    rw [w1', w2', w2, key, n1]
    rfl
  · obtain ⟨m, m', u, u', R⟩ := P.run_twin hi hm s s' S.first S.last S.luc S.sun hjp rfl rfl hr hr'
    rw [hg, Source.handler.injEq] at u
    rw [hg', Source.handler.injEq] at u'
    subst u u'
    rw [n1, n2] at R
    have hkeep : g.years = pyRange d0.nystart (d0.nyend + 1) ∧ g.prec = h0.prec := by
      obtain ⟨hh, hh1, -, kept, -⟩ := after_spec yearLaw_real hd0 ha (fun _ => True) trivial
        (fun _ _ _ _ _ _ _ => trivial) (fun _ _ _ _ _ _ => trivial)
      obtain ⟨g1, g2, r1, r2, r3, -⟩ := run_handler_spec hh1 hr
      rw [hg, Source.handler.injEq] at r2
      subst r2
      obtain ⟨pam, c, -, -, rfl⟩ := reset_spec r1
      obtain ⟨-, -, -, -, -, -, -, -, -, -, z⟩ := constructed hc ht
      refine ⟨?_, ?_⟩
      · rw [r3.years]
        show hh.years = _
        rw [kept.years, z]
      · rw [r3.prec]
        exact kept.prec
    obtain ⟨hyears, hprec⟩ := hkeep
    have hin : ¬ (y < d0.nystart ∨ g.years.length ≤ (y - d0.nystart).toNat) := by
      rw [hyears, pyRange_length]; omega
    have hah := main_not_ahead hgas ht hc
    rw [← hprec] at hah
    have hname : ∀ t s, s ≠ "SO4_DIR" → reportName t = s → t = s := by
      intro t s hs e
      unfold reportName at e
      split at e
      · exact absurd e.symm hs
      · exact e
    have hback : ∀ t s, s ≠ "SO2" → reportName t ≠ s → t ≠ s := by
      rintro t s hs e rfl
      apply e
      unfold reportName
      rw [if_neg hs]
    have hyy : g'.years = g.years := by rw [R.near.eq]
    have hfk : g'.forcKeys = g.forcKeys := by rw [R.near.eq]
    have hck : g'.concKeys = g.concKeys := by rw [R.near.eq]
    have hgs : g'.gas = g.gas := by rw [R.near.eq]
    obtain ⟨hco2, hn2o⟩ := R.gain y hy1 (by omega)
    refine ⟨?_, ?_⟩
    · unfold reportForcing
      rw [hfk, hyy, R.near.erf.1]
      refine List.rel_append (List.forall₂_map_left_iff.2 (List.forall₂_map_right_iff.2 (List.forall₂_same.2 ?_)))
        (List.forall₂_map_left_iff.2 (List.forall₂_map_right_iff.2 (List.forall₂_same.2 ?_)))
      · intro t htm
        refine ⟨rfl, fun e => ?_, fun e => ?_, fun a b c => ?_⟩ <;> simp only [if_neg hin]
        · rw [hname _ _ (by decide) e]
          exact ⟨_, rfl, by rw [hco2]⟩
        · rw [hname _ _ (by decide) e]
          exact ⟨_, rfl, by rw [hn2o]⟩
        · rw [R.near.forc t (hback _ _ (by decide) a) (hback _ _ (by decide) b) (hback _ _ (by decide) c)]
      · intro c hcm
        obtain ⟨k1, k2⟩ := hah c hcm
        refine ⟨rfl, fun e => absurd (hname _ _ (by decide) e) k1, fun e => absurd (hname _ _ (by decide) e) k2, fun _ _ _ => ?_⟩
        simp only
        exact R.near.erf.2 c hcm y
    · unfold reportConc
      rw [hgs, hck, hyy, R.near.gases, R.rows, R.rows']
      refine List.forall₂_map_left_iff.2 (List.forall₂_map_right_iff.2 (List.forall₂_same.2 ?_))
      intro c _
      refine ⟨rfl, fun hck => ?_⟩
      simp only
      split
      · split
        · rw [R.near.conc c hck]
        · unfold concRows
          rw [lookup_map_pyRange (fun y c => i.concIn.cell c y), lookup_map_pyRange (fun y c => i'.concIn.cell c y)]
          split
          · simp only [Option.map_some, hi.others c hck]
          · rfl
      · rfl

/-- What the order theorems need of the two runs. -/
theorem twin_years {tops : ThermalOps ℝ τ} (hi : OnlyConcOf "CO2" i i') (hgas : i.gas.keys.Nodup) (hx : Factors i.gas sc sn)
    (hcols : ∀ t ∈ ["CO2", "N2O", "CH4"], t ∈ i.concIn.cols)
    (ht : RunTables i.concIn i.emis (Dict.set (Factory.checkPamset pamset) "conc_run" (.bool i.concRun))
      d0.nystart es d0.nyend)
    (hc : construct cops i pamset carb = .ok h0) (hc' : construct cops i' pamset carb = .ok h0')
    (hd0 : d0.source = .handler h0) (hd0' : d0'.source = .handler h0') (hs : SameSetting d0 d0') (hj : NoJustOne pamset ps p)
    (ha : After cops tops d0 ps d) (ha' : After cops tops d0' ps d')
    (hmore : MoreCo2 i.concIn.cell i'.concIn.cell d0.nystart d0.nyend) (hsn : 0 ≤ sn) (hsc : sn ≤ 1.5 * sc)
    {dep : ℝ} (hdep : dep = 0) {ok : ℝ → Prop} (hok : ∀ w, ok w) :
    d.nystart = d'.nystart ∧ d.nyend = d'.nyend ∧ d'.nystart = d0.nystart ∧ d'.nyend = d0.nyend ∧
    ∀ f f' v v', ForcedBy cops d d1 p f v → ForcedBy cops d' d1' p f' v' → YearsLe d d' dep ok f f' := by
  have P0 := construct_twin sc sn hi hgas ht hj.1 hmore.start hc hc'
  have hm : Main i sc sn := ⟨hx, hcols⟩
  obtain ⟨h, h', y0, s, s', P, n1, n2, S⟩ := after_twin hd0 hd0' hs hi hm P0 ha ha'
    (fun q hq => hj.2 q (List.mem_append_left _ hq))
  have hjp := hj.2 p (List.mem_append_right _ (List.mem_singleton.2 rfl))
  rw [← n1, ← n2] at P
  refine ⟨S.first.symm, S.last.symm, S.first.trans n1, S.last.trans n2, fun f f' v v' F F' => ?_⟩
  intro n hn vn1 vs1 vn2 vs2 a1 a2 a3 a4
  have hn' : n < (d.nyend - d.nystart + 1).toNat := by
    have := S.first
    have := S.last
    omega
  obtain ⟨key, key'⟩ := forced_twin s s' S hi hm P hjp F F' n hn'
  have hm : 0 ≤ both i i' sc sn d.nystart (d.nystart + n) := by
    rw [n1]
    exact more_co2 hmore hi.others hsn hsc (by omega) (by omega)
  rw [S.north, a1, Option.some.injEq] at a3
  rw [S.south, a2, Option.some.injEq] at a4
  subst a3 a4
  exact ⟨.inr hdep, hok _, by rw [key]; simpa using hm, by rw [key']; simpa using hm, List.forall₂_same.2 fun _ _ => le_rfl,
    List.forall₂_same.2 fun _ _ => le_rfl⟩

/-- **C96**, two-layer model without a state dependent feedback, with parameters for which no layer loses more heat in a year
than it has: with more CO2 no reported temperature and no reported heat content is lower in any year. -/
theorem C96_warms_two_layer {t t' : TwoLayer.Pams ℝ × TwoLayer.State ℝ} (hi : OnlyConcOf "CO2" i i')
    (hgas : i.gas.keys.Nodup) (hx : Factors i.gas sc sn) (hcols : ∀ t ∈ ["CO2", "N2O", "CH4"], t ∈ i.concIn.cols)
    (ht : RunTables i.concIn i.emis (Dict.set (Factory.checkPamset pamset) "conc_run" (.bool i.concRun))
      d0.nystart es d0.nyend)
    (hc : construct cops i pamset carb = .ok h0) (hc' : construct cops i' pamset carb = .ok h0')
    (hd0 : d0.source = .handler h0) (hd0' : d0'.source = .handler h0') (hs : SameSetting d0 d0') (hj : NoJustOne pamset ps p)
    (ha : After cops twoLayerOps d0 ps d) (ha' : After cops twoLayerOps d0' ps d')
    (hr : run cops twoLayerOps d p = .ok (d1, t)) (hr' : run cops twoLayerOps d' p = .ok (d1', t')) {q : TwoLayer.Pams ℝ}
    (hq : twoLayerPams (cutAndCheckPamset twoLayerRequired (p.udm.getD []) []) = .ok q) (hq0 : q.delta_lambda_aero = 0)
    (hsmall : SmallSteps q.mixed q.deep q.k q.ocean_efficacy q.lambda)
    (hf0 : 0 ≤ q.foan + q.foas) (hf2 : q.foan + q.foas ≤ 2)
    (hmore : MoreCo2 i.concIn.cell i'.concIn.cell d0.nystart d0.nyend) (hsn : 0 ≤ sn) (hsc : sn ≤ 1.5 * sc) :
    ∀ o ∈ ["dT_glob", "dT_fast", "dT_slow", "OHC_MIXED", "OHC_DEEP", "OHC700", "OHCTOT"],
      ∀ n : ℕ, d0.nystart + n ≤ d0.nyend → EntryLe d1.results d1'.results o n := by
  obtain ⟨n1, n2, n3, n4, hy⟩ := twin_years (d1 := d1) (d1' := d1') hi hgas hx hcols ht hc hc' hd0 hd0' hs hj ha ha' hmore
    hsn hsc hq0 (ok := fun w => SmallSteps q.mixed q.deep q.k q.ocean_efficacy (q.lambda + w * q.delta_lambda_aero))
    (fun w => by rw [hq0, mul_zero, add_zero]; exact hsmall)
  have := order_two_layer hr hr' rfl hq hf0 hf2 n1 n2 hy
  rwa [n3, n4] at this

/-- **C96**, diffusion model with constant upwelling in the physical range and without a state dependent feedback. -/
theorem C96_warms_diffusion {solve : UDM.Solver ℝ} (hsol : Exact solve) {t t' : UDM.Model ℝ} (hi : OnlyConcOf "CO2" i i')
    (hgas : i.gas.keys.Nodup) (hx : Factors i.gas sc sn) (hcols : ∀ t ∈ ["CO2", "N2O", "CH4"], t ∈ i.concIn.cols)
    (ht : RunTables i.concIn i.emis (Dict.set (Factory.checkPamset pamset) "conc_run" (.bool i.concRun))
      d0.nystart es d0.nyend)
    (hc : construct cops i pamset carb = .ok h0) (hc' : construct cops i' pamset carb = .ok h0')
    (hd0 : d0.source = .handler h0) (hd0' : d0'.source = .handler h0') (hs : SameSetting d0 d0') (hj : NoJustOne pamset ps p)
    (ha : After cops (udmOps solve) d0 ps d) (ha' : After cops (udmOps solve) d0' ps d')
    (hr : run cops (udmOps solve) d p = .ok (d1, t)) (hr' : run cops (udmOps solve) d' p = .ok (d1', t')) {q : UDM.Pams ℝ}
    (hq : udmPams (cutAndCheckPamset udmRequired (p.udm.getD []) []) = .ok q) (hph : Physical q) (hth : q.threstemp = 0)
    (ho : Ordered q q.W) (hg : Gentle q q.W) (hn1 : q.foan ≤ 1) (hs1 : q.foas ≤ 1) (h700 : q.mixed ≤ 700)
    (hq0 : q.delta_lambda_aero = 0) (hfb : 0 < q.lambda)
    (hmore : MoreCo2 i.concIn.cell i'.concIn.cell d0.nystart d0.nyend) (hsn : 0 ≤ sn) (hsc : sn ≤ 1.5 * sc) :
    ∀ o ∈ ["dT_glob", "dT_NH", "dT_SH", "dT_glob_air", "dT_NH_air", "dT_SH_air", "dT_glob_sea", "dT_NH_sea", "dT_SHsea",
        "OHC700", "OHCTOT"],
      ∀ n : ℕ, d0.nystart + n ≤ d0.nyend → EntryLe d1.results d1'.results o n := by
  obtain ⟨n1, n2, n3, n4, hy⟩ := twin_years (d1 := d1) (d1' := d1') hi hgas hx hcols ht hc hc' hd0 hd0' hs hj ha ha' hmore
    hsn hsc hq0 (ok := fun w => 0 < feedback q w)
    (fun w => by unfold feedback; rw [hq0, mul_zero, add_zero]; exact one_div_pos.2 hfb)
  have := order_diffusion hsol hr hr' rfl hq hph hth ho hg hn1 hs1 h700 n1 n2 hy
  rwa [n3, n4] at this

end

/-! ## The hypotheses are met -/

section
open Verif.Exec Verif.Lemmas.Tridiag Verif.Model.CarbonInst

/-- The third of three runs in a row with growing CO2. -/
theorem co2_case (s : ℝ) : ∃ h0 d d1 t g, construct irOps (co2Inputs s) richPam none = .ok h0 ∧
    After irOps twoLayerOps (richDriver h0) (richRuns.take 2) d ∧
    run irOps twoLayerOps d ⟨none, none, some [("beta_f", .flt 1)]⟩ = .ok (d1, t) ∧ d1.source = .handler g := by
  obtain ⟨h1, h2, h3, h4, h5⟩ := rich_pams
  obtain ⟨h0, hc, h⟩ := C63_default (carb := none) yearLaw_real (i := co2Inputs s) sulfur_gases (co2_tables s) h1 h2 h3 h4
    (by decide) (.absent (by decide)) (by simp)
  obtain ⟨d1, hd⟩ := h (richDriver h0) (richRuns.take 2 ++ [⟨none, none, some [("beta_f", .flt 1)]⟩]) rfl rfl rfl
    (rich_series h0) (by
    intro p hp
    simp only [richRuns, List.take, List.cons_append, List.nil_append, List.mem_cons, List.not_mem_nil, or_false] at hp
    rcases hp with rfl | rfl | rfl
    · exact ⟨h5, .absent (by decide), by simp⟩
    · exact ⟨rfl, .absent (by simp [Dict.keys]), by simp⟩
    · refine ⟨h5, .absent (by decide), ?_⟩
      intro q hq
      simp only [Option.some.injEq] at hq
      subst hq
      intro key hk
      simp only [Dict.keys, List.map_cons, List.map_nil, List.mem_cons, List.not_mem_nil, or_false] at hk
      subst hk
      exact ⟨by decide, by decide, by decide⟩)
  obtain ⟨d, t, ha, hr⟩ := after_snoc hd
  obtain ⟨h, hd, -⟩ := after_spec yearLaw_real (rfl : (richDriver h0).source = .handler h0) ha (fun _ => True)
      trivial (fun _ _ _ _ _ _ _ => trivial) (fun _ _ _ _ _ _ => trivial)
  obtain ⟨g0, g, -, hg, -⟩ := run_handler_spec hd hr
  exact ⟨h0, d, d1, t, g, hc, ha, hr, hg⟩

/-- A run with the diffusion model with growing CO2. -/
theorem co2_diffusion (s : ℝ) : ∃ h0 d1 t, construct irOps (co2Inputs s) richPam none = .ok h0 ∧
    run irOps (udmOps exactSolver) (richDriver h0) ⟨some flatSet, none, none⟩ = .ok (d1, t) := by
  obtain ⟨h1, h2, h3, h4, h5⟩ := rich_pams
  obtain ⟨h0, hc, h⟩ := C63_diffusion exactSolver_exact (carb := none) (i := co2Inputs s) sulfur_gases (co2_tables s) h1 h2 h3
    h4 (by decide) (.absent (by decide)) (by simp)
  obtain ⟨d1, hd⟩ := h (richDriver h0) ([] ++ [⟨some flatSet, none, none⟩]) rfl rfl rfl
    (rich_series h0) (by
    intro p hp
    simp only [List.nil_append, List.mem_singleton] at hp
    subst hp
    exact ⟨⟨_, flat_set, flat_safe⟩, h5, .absent (by decide), by simp⟩)
  obtain ⟨d, t, ha, hr⟩ := after_snoc hd
  have := after_nil ha
  subst this
  exact ⟨h0, d1, t, hc, hr⟩

/-- CO2 growing by 3 ppm instead of 1 ppm per year, third run in a row. -/
example : ∃ (d1 d1' : Driver ℝ (IR ℝ)) (tot more : ℝ), entry d1.results "Total_forcing" 5 = some tot ∧
    entry d1'.results "Total_forcing" 5 = some (tot + more) ∧ 0 ≤ more ∧ EntryLe d1.results d1'.results "dT_glob" 5 := by
  obtain ⟨h0, d, d1, t, g, hc, ha, hr, hg⟩ := co2_case 1
  obtain ⟨h0', d', d1', t', g', hc', ha', hr', hg'⟩ := co2_case 3
  obtain ⟨p1, p2, p3, -⟩ := rich_pams
  have ht := (co2_tables 1).run p1 p2 p3
  have hj : NoJustOne richPam (richRuns.take 2) ⟨none, none, some [("beta_f", .flt 1)]⟩ := by
    refine ⟨by decide, ?_⟩
    intro q hq
    simp only [richRuns, List.take, List.cons_append, List.nil_append, List.mem_cons, List.not_mem_nil, or_false] at hq
    rcases hq with rfl | rfl | rfl <;> simp [Dict.keys]
  obtain ⟨⟨tot, e, e'⟩, -⟩ := C96_forcing (d0 := richDriver h0) (d0' := richDriver h0') (co2_only 1 3) sulfur_gases.once
    (co2_factors 1) (co2_cols 1) co2_more.start ht twoLayer_names twoLayer_names hc hc' rfl rfl (sulfur_setting h0 h0') hj ha ha'
    hr hr' hg hg' (y := 2003) (by simp [richDriver]) (by simp [richDriver])
  have key := C96_warms_two_layer (d0 := richDriver h0) (d0' := richDriver h0') (co2_only 1 3) sulfur_gases.once
    (co2_factors 1) (co2_cols 1) ht hc hc' rfl rfl (sulfur_setting h0 h0') hj ha ha' hr hr'
    (show twoLayerPams (cutAndCheckPamset (twoLayerRequired (F := ℝ)) [] []) = .ok TwoLayer.Pams.default by
      have e : twoLayerPams (cutAndCheckPamset (twoLayerRequired (F := ℝ)) [] []) =
        .ok ⟨3.74 / 3.0, ofInt 50, ofInt 1200, 0.5, ofInt 1, 0.61, 0.81, 0.0⟩ := rfl
      rw [e]
      norm_num [TwoLayer.Pams.default])
    (by norm_num [TwoLayer.Pams.default]) (by constructor <;> norm_num [TwoLayer.Pams.default])
    (by norm_num [TwoLayer.Pams.default]) (by norm_num [TwoLayer.Pams.default]) co2_more (by norm_num) (by norm_num)
  exact ⟨d1, d1', tot, _, e, e', more_co2 co2_more (co2_only 1 3).others (by norm_num) (by norm_num)
    (show (1998 : ℤ) ≤ 2003 by decide) le_rfl,
    key "dT_glob" (by simp) 5 (by simp [richDriver])⟩

/-- The same with the diffusion model. -/
example : ∃ (h0 h0' : Handler ℝ (IR ℝ)) (d1 d1' : Driver ℝ (IR ℝ)) (t t' : UDM.Model ℝ),
    construct irOps (co2Inputs 1) richPam none = .ok h0 ∧ construct irOps (co2Inputs 3) richPam none = .ok h0' ∧
    run irOps (udmOps exactSolver) (richDriver h0) ⟨some flatSet, none, none⟩ = .ok (d1, t) ∧
    run irOps (udmOps exactSolver) (richDriver h0') ⟨some flatSet, none, none⟩ = .ok (d1', t') ∧
    EntryLe d1.results d1'.results "dT_SH_air" 4 := by
  obtain ⟨h0, d1, t, hc, hr⟩ := co2_diffusion 1
  obtain ⟨h0', d1', t', hc', hr'⟩ := co2_diffusion 3
  obtain ⟨p1, p2, p3, -⟩ := rich_pams
  have ht := (co2_tables 1).run p1 p2 p3
  have hj : NoJustOne richPam [] ⟨some flatSet, none, none⟩ := by
    refine ⟨by decide, ?_⟩
    intro q hq
    simp only [List.nil_append, List.mem_singleton] at hq
    subst hq
    simp [Dict.keys]
  exact ⟨h0, h0', d1, d1', t, t', hc, hc', hr, hr', C96_warms_diffusion (d0 := richDriver h0) (d0' := richDriver h0')
    exactSolver_exact (co2_only 1 3) sulfur_gases.once (co2_factors 1) (co2_cols 1) ht hc hc' rfl rfl (sulfur_setting h0 h0') hj
    .fresh .fresh hr hr' flat_set C35.flat_physical rfl C35.flat_ordered C35.flat_gentle
    (by simp only [C35.flatPams]; norm_num) (by simp only [C35.flatPams]; norm_num) (by simp only [C35.flatPams]; norm_num)
    (by simp only [C35.flatPams]) (by simp only [C35.flatPams]; norm_num) co2_more (by norm_num) (by norm_num)
    "dT_SH_air" (by simp) 4 (by simp [richDriver])⟩

end

end Verif.Props
