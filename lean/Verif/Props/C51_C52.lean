import Verif.Lemmas.ReaderCodes
import Verif.Props.C40_C41_C57
import Verif.Py.RealInst
import Mathlib.Algebra.BigOperators.Group.List.Basic
import Mathlib.Tactic.Ring
import Mathlib.Tactic.Linarith

/-!
# C51: aggregated forcing variables; C52: carbon pools and fluxes; C67, C68: variables and units
-/

namespace Verif.Props
open Verif.Py Verif.Py.Dict Verif.Model Verif.Model.Reader

/-! ## Specification -/

/-- The value a request for variable `v` reports for the `i`-th year, 0 if there is none. -/
noncomputable def reported (r : Results ℝ) (years : List Int) (w : Units) (v : String) (i : Nat) : ℝ :=
  match getVariable r years v w with
  | .ok a => a.series.getD i 0
  | .error _ => 0

theorem reported_of_ok {r : Results ℝ} {years : List Int} {w : Units} {v : String} {a : Answer ℝ}
    (h : getVariable r years v w = .ok a) (i : Nat) : reported r years w v i = a.series.getD i 0 := by
  unfold reported
  rw [h]

/-- The variables a user can ask for that lie below `v` in the variable hierarchy. -/
def below (v : String) : List String := (Dict.keys variableDict).filter (fun x => startsWith x (v ++ "|"))

/-- Every column of the table has a value for every year. -/
def Square (t : Df ℝ) : Prop := ∀ c xs, t.cols.get? c = some xs → xs.length = t.years.length

/-! ## The dictionary of variables -/

open Verif.Lemmas.ReaderCodes

theorem inStr_lit (a b : List Char) : inStr (String.ofList a) (String.ofList b) =
    subN (a.map Char.toNat) (b.map Char.toNat) := by
  rw [inStr_code, code_ofList, code_ofList]

theorem endsWith_lit (a b : List Char) : endsWith (String.ofList a) (String.ofList b) =
    prefN (b.map Char.toNat).reverse (a.map Char.toNat).reverse := by
  rw [endsWith_code, code_ofList, code_ofList]

theorem replace_lit {a b c d : List Char}
    (h : replaceN (b.map Char.toNat) (c.map Char.toNat) 0 (a.map Char.toNat) = d.map Char.toNat) :
    replace (String.ofList a) (String.ofList b) (String.ofList c) = String.ofList d := by
  apply code_inj
  rw [replace_code, code_ofList, code_ofList, code_ofList, code_ofList, h]

theorem vd_lit {k v : List Char} (h : getN variableN (k.map Char.toNat) = some (v.map Char.toNat)) :
    variableDict.get? (String.ofList k) = some (String.ofList v) := by
  apply get_of_code
  rw [variable_code, code_ofList, code_ofList, h]

theorem vd_fgas : variableDict.get? "Effective Radiative Forcing|Anthropogenic|F-Gases" = some "Fgas" :=
  vd_lit (by decide +kernel)
theorem vd_ghg : variableDict.get? "Effective Radiative Forcing|Greenhouse Gases" = some "GHG" :=
  vd_lit (by decide +kernel)
theorem vd_total : variableDict.get? "Effective Radiative Forcing" = some "Total_forcing+sunvolc" :=
  vd_lit (by decide +kernel)
theorem vd_anthropogenic : variableDict.get? "Effective Radiative Forcing|Anthropogenic" = some "Total_forcing" :=
  vd_lit (by decide +kernel)
theorem vd_aerosol : variableDict.get? "Effective Radiative Forcing|Anthropogenic|Aerosol" = some "Aerosols" :=
  vd_lit (by decide +kernel)
theorem vd_ari : variableDict.get? "Effective Radiative Forcing|Anthropogenic|Aerosol|Aerosol-radiation Interactions" =
    some "Aerosols|Direct Effect" := vd_lit (by decide +kernel)
theorem vd_aci : variableDict.get? "Effective Radiative Forcing|Anthropogenic|Aerosol|Aerosol-cloud Interactions" =
    some "SO4_IND" := vd_lit (by decide +kernel)

theorem below_code (v : List Char) : (below (String.ofList v)).map code =
    (variableN.map Prod.fst).filter (prefN (v.map Char.toNat ++ [124])) := by
  have hk : ∀ l : List String, (l.filter (fun x => startsWith x (String.ofList v ++ "|"))).map code =
      (l.map code).filter (prefN (v.map Char.toNat ++ [124])) := by
    intro l
    rw [List.filter_map]
    congr 1
    apply List.filter_congr
    intro x _
    rw [startsWith_code, code_append, code_ofList, show code "|" = [124] from (code_ofList _).trans (by decide +kernel)]
    rfl
  have hc : ∀ d : Dict String, (Dict.keys d).map code = (encD d).map Prod.fst := by
    intro d
    unfold Dict.keys encD
    rw [List.map_map, List.map_map]
    rfl
  unfold below
  rw [hk, hc, variable_code]

/-! ## Column sums -/

/-- The value of a column in the `i`-th row, 0 if the column is not there. -/
noncomputable def colAt (t : Df ℝ) (c : String) (i : Nat) : ℝ :=
  match t.cols.get? c with
  | some xs => xs.getD i 0
  | none => 0

theorem addArr_spec {xs ys : List ℝ} {n : Nat} (hx : xs.length = n) (hy : ys.length = n) :
    ∃ zs, addArr xs ys = .ok zs ∧ zs.length = n ∧ ∀ i < n, zs.getD i 0 = xs.getD i 0 + ys.getD i 0 := by
  refine ⟨List.zipWith (· + ·) xs ys, ?_, by simp [hx, hy], ?_⟩
  · unfold addArr
    rw [if_pos (hx.trans hy.symm)]
  · intro i hi
    simp [List.getD_eq_getElem?_getD, List.getElem?_eq_getElem (by omega : i < xs.length),
      List.getElem?_eq_getElem (by omega : i < ys.length), List.getElem?_zipWith]

theorem addPresent_spec {t : Df ℝ} (ht : Square t) : ∀ (l : List String) {acc : List ℝ}, acc.length = t.years.length →
    ∃ s, l.foldlM (addPresent t) acc = .ok s ∧ s.length = t.years.length ∧
      ∀ i < t.years.length, s.getD i 0 = acc.getD i 0 + (l.map (fun c => colAt t c i)).sum := by
  intro l
  induction l with
  | nil => intro acc h; exact ⟨acc, rfl, h, by simp⟩
  | cons c l ih =>
    intro acc h
    obtain ⟨acc', h1, h2, h3⟩ : ∃ acc', addPresent t acc c = .ok acc' ∧ acc'.length = t.years.length ∧
        ∀ i < t.years.length, acc'.getD i 0 = acc.getD i 0 + colAt t c i := by
      unfold addPresent colAt
      cases hc : t.cols.get? c with
      | none => exact ⟨acc, rfl, h, fun i _ => by simp⟩
      | some xs => exact addArr_spec h (ht c xs hc)
    obtain ⟨s, h4, h5, h6⟩ := ih h2
    refine ⟨s, ?_, h5, ?_⟩
    · rw [List.foldlM_cons, h1]
      exact h4
    · intro i hi
      rw [h6 i hi, h3 i hi, List.map_cons, List.sum_cons]
      ring

theorem zeros_getD (n i : Nat) : (List.replicate n (0.0 : ℝ)).getD i 0 = 0 := by
  rw [List.getD_eq_getElem?_getD, List.getElem?_replicate]
  split
  · norm_num
  · rfl

/-! ## Single forcing components -/

/-- A variable that is a column of the forcing table. -/
def plainForcing (v : String) : Bool :=
  !inStr "Concentration" v && !inStr "Emissions" v && inStr "Forcing" v &&
    match variableDict.get? v with
    | some c => decide (c ∉ forcSums ∧ c ≠ "Fgas" ∧ c ≠ "GHG" ∧ c ≠ "Total_forcing+sunvolc")
    | none => false

/-- The groups. -/
def groupsN : List (List Nat) := ["Aerosols", "Aerosols|Direct Effect", "Fgas", "GHG", "Total_forcing+sunvolc"].map code

theorem groupsN_eq : groupsN = [[65, 101, 114, 111, 115, 111, 108, 115],
    [65, 101, 114, 111, 115, 111, 108, 115, 124, 68, 105, 114, 101, 99, 116, 32, 69, 102, 102, 101, 99, 116],
    [70, 103, 97, 115], [71, 72, 71],
    [84, 111, 116, 97, 108, 95, 102, 111, 114, 99, 105, 110, 103, 43, 115, 117, 110, 118, 111, 108, 99]] := by
  unfold groupsN
  simp only [List.map_cons, List.map_nil]
  repeat' (first | apply congrArg₂ List.cons ((code_ofList _).trans (by decide +kernel)) | rfl)

/-- `plainForcing` on codes. -/
def plainN (v : List Nat) : Bool :=
  !subN [67, 111, 110, 99, 101, 110, 116, 114, 97, 116, 105, 111, 110] v &&
    !subN [69, 109, 105, 115, 115, 105, 111, 110, 115] v && subN [70, 111, 114, 99, 105, 110, 103] v &&
    match getN variableN v with
    | some c => !([[65, 101, 114, 111, 115, 111, 108, 115],
        [65, 101, 114, 111, 115, 111, 108, 115, 124, 68, 105, 114, 101, 99, 116, 32, 69, 102, 102, 101, 99, 116],
        [70, 103, 97, 115], [71, 72, 71], [84, 111, 116, 97, 108, 95, 102, 111, 114, 99, 105, 110, 103, 43, 115, 117, 110,
        118, 111, 108, 99]].any (eqN c))
    | none => false

theorem plain_code (v : String) : plainForcing v = plainN (code v) := by
  unfold plainForcing plainN
  rw [inStr_code, inStr_code, inStr_code,
    show code "Concentration" = _ from (code_ofList _).trans (by decide +kernel : _ =
      [67, 111, 110, 99, 101, 110, 116, 114, 97, 116, 105, 111, 110]),
    show code "Emissions" = _ from (code_ofList _).trans (by decide +kernel : _ =
      [69, 109, 105, 115, 115, 105, 111, 110, 115]),
    show code "Forcing" = _ from (code_ofList _).trans (by decide +kernel : _ = [70, 111, 114, 99, 105, 110, 103]),
    ← variable_code, ← get_code, ← groupsN_eq]
  congr 1
  cases variableDict.get? v with
  | none => rfl
  | some c =>
    simp only [Option.map_some]
    unfold groupsN
    rw [← mem_code, ← decide_not]
    apply decide_eq_decide.mpr
    unfold forcSums
    simp only [List.mem_cons, List.not_mem_nil, or_false, not_or, and_assoc]

theorem all_plain {vs : List String} (h : (vs.map code).all plainN = true) : vs.all plainForcing = true := by
  rw [List.all_map] at h
  rw [← h]
  congr 1
  funext v
  exact plain_code v

theorem gets_code {vs cs : List String} (h : (vs.map code).map (getN variableN) = (cs.map code).map some) :
    vs.map (fun v => variableDict.get? v) = cs.map some := by
  rw [← variable_code, List.map_map, List.map_map] at h
  have e : ∀ o : List (Option String), ∀ o', o.map (Option.map code) = o'.map (Option.map code) → o = o' := by
    intro o o' ho
    apply List.map_injective_iff.mpr _ ho
    intro a b hab
    cases a <;> cases b <;> simp_all
    exact code_inj hab
  apply e
  rw [List.map_map, List.map_map]
  refine Eq.trans ?_ (h.trans ?_)
  · congr 1; funext v; exact get_code _ _
  · rfl

theorem fgas_below : (below "Effective Radiative Forcing|Anthropogenic|F-Gases").all plainForcing = true ∧
    (below "Effective Radiative Forcing|Anthropogenic|F-Gases").map (fun v => variableDict.get? v) = fgasList.map some := by
  constructor
  · apply all_plain
    refine (congrArg (fun l : List (List Nat) => l.all plainN) (below_code _)).trans ?_
    decide +kernel
  · apply gets_code
    refine (congrArg (List.map (getN variableN)) (below_code _)).trans ?_
    rw [fgas_code]
    decide +kernel

theorem montreal_below : (below "Effective Radiative Forcing|Anthropogenic|Montreal Gases").all plainForcing = true ∧
    (below "Effective Radiative Forcing|Anthropogenic|Montreal Gases").map (fun v => variableDict.get? v) =
      montrealList.map some := by
  constructor
  · apply all_plain
    refine (congrArg (fun l : List (List Nat) => l.all plainN) (below_code _)).trans ?_
    decide +kernel
  · apply gets_code
    refine (congrArg (List.map (getN variableN)) (below_code _)).trans ?_
    rw [montreal_code]
    decide +kernel

theorem ari_below :
    (below "Effective Radiative Forcing|Anthropogenic|Aerosol|Aerosol-radiation Interactions").all plainForcing = true ∧
    (below "Effective Radiative Forcing|Anthropogenic|Aerosol|Aerosol-radiation Interactions").map
      (fun v => variableDict.get? v) = ["BC", "OC", "SO4_DIR"].map some := by
  constructor
  · apply all_plain
    refine (congrArg (fun l : List (List Nat) => l.all plainN) (below_code _)).trans ?_
    decide +kernel
  · apply gets_code
    refine (congrArg (List.map (getN variableN)) (below_code _)).trans ?_
    rw [show ["BC", "OC", "SO4_DIR"].map code = [[66, 67], [79, 67], cSO4] by
      simp only [List.map_cons, List.map_nil]
      rw [cSO4_eq]
      exact congrArg₂ List.cons ((code_ofList _).trans (by decide +kernel))
        (congrArg₂ List.cons ((code_ofList _).trans (by decide +kernel)) rfl)]
    decide +kernel

theorem plain_lit {v : List Char} (h : plainN (v.map Char.toNat) = true) : plainForcing (String.ofList v) = true := by
  rw [plain_code, code_ofList, h]

theorem sums_filter {c : String} (hc : c ∈ forcSums) :
    variableDict.filter (fun kv => inStr c kv.1 && decide (kv.2 ∉ forcSums)) =
      [("Effective Radiative Forcing|Aerosols|Direct Effect|SOx", "SO4_DIR")] := by
  apply encD_inj
  have hfs : forcSums.map code = [[65, 101, 114, 111, 115, 111, 108, 115],
      [65, 101, 114, 111, 115, 111, 108, 115, 124, 68, 105, 114, 101, 99, 116, 32, 69, 102, 102, 101, 99, 116]] := by
    unfold forcSums
    simp only [List.map_cons, List.map_nil]
    repeat' (first | apply congrArg₂ List.cons ((code_ofList _).trans (by decide +kernel)) | rfl)
  have hk : ∀ d : Dict String, encD (d.filter (fun kv => inStr c kv.1 && decide (kv.2 ∉ forcSums))) =
      (encD d).filter (fun kv => subN (code c) kv.1 && !([[65, 101, 114, 111, 115, 111, 108, 115],
        [65, 101, 114, 111, 115, 111, 108, 115, 124, 68, 105, 114, 101, 99, 116, 32, 69, 102, 102, 101, 99, 116]].any
          (eqN kv.2))) := by
    intro d
    unfold encD
    rw [List.filter_map]
    congr 1
    apply List.filter_congr
    intro kv _
    rw [inStr_code, decide_not, mem_code, hfs]
    rfl
  rw [hk, variable_code]
  have hr : encD [("Effective Radiative Forcing|Aerosols|Direct Effect|SOx", "SO4_DIR")] = [(cSOx, cSO4)] := by
    unfold encD
    rw [List.map_cons, List.map_nil]
    simp only [cSOx_eq, cSO4_eq]
  rw [hr]
  have hm : code c ∈ forcSums.map code := List.mem_map_of_mem hc
  rw [hfs] at hm
  revert hm
  generalize code c = n
  intro hm
  simp only [List.mem_cons, List.not_mem_nil, or_false] at hm
  rcases hm with rfl | rfl <;> decide +kernel

theorem reported_plain {r : Results ℝ} {years : List Int} {w : Units} {v c : String} {t : Df ℝ} (hv : plainForcing v = true)
    (hc : variableDict.get? v = some c) (ht : r.tables.get? "forcing" = some t) (i : Nat) :
    reported r years w v i = colAt t c i := by
  unfold plainForcing at hv
  simp only [Bool.and_eq_true, Bool.not_eq_true', hc, decide_eq_true_eq] at hv
  obtain ⟨⟨⟨h1, h2⟩, h3⟩, h4, h5, h6, h7⟩ := hv
  have htE : Dict.getE r.tables "forcing" = .ok t := by unfold Dict.getE; rw [ht]
  have hg : getVariable r years v w =
      (do let xs ← t.cols.getE c; return ⟨t.years, xs, "W/m^2"⟩ : Except PyErr (Answer ℝ)) := by
    unfold getVariable
    rw [h1, h2, h3, hc]
    simp only [Bool.false_eq_true, if_false, if_true]
    unfold fromForc
    rw [htE]
    simp only [bind_ok, if_neg h7]
    unfold forcCommon
    simp only [if_neg h4, if_neg h5, if_neg h6, if_neg h7]
    cases hx : t.cols.getE c with
    | error e => simp only [bind_error]
    | ok xs => simp only [bind_ok, pure_ok]
  unfold reported
  rw [hg]
  unfold colAt Dict.getE
  cases hx : t.cols.get? c with
  | none => rfl
  | some xs => rfl

theorem parts_sum {r : Results ℝ} {years : List Int} {w : Units} {t : Df ℝ} (ht : r.tables.get? "forcing" = some t) (i : Nat) :
    ∀ {vs cs : List String}, vs.all plainForcing = true → vs.map (fun v => variableDict.get? v) = cs.map some →
      (vs.map (fun v => reported r years w v i)).sum = (cs.map (fun c => colAt t c i)).sum := by
  intro vs
  induction vs with
  | nil =>
    intro cs _ h
    cases cs with
    | nil => rfl
    | cons c cs => cases h
  | cons v vs ih =>
    intro cs h1 h2
    cases cs with
    | nil => cases h2
    | cons c cs =>
      rw [List.all_cons, Bool.and_eq_true] at h1
      rw [List.map_cons, List.map_cons, List.cons.injEq] at h2
      rw [List.map_cons, List.map_cons, List.sum_cons, List.sum_cons, ih h1.2 h2.2, reported_plain h1.1 h2.1 ht]

/-! ## C51 -/

/-- The request for an aggregated forcing variable, for the group `c`. -/
theorem forcing_request {r : Results ℝ} {years : List Int} {w : Units} {v c : String} {t : Df ℝ} {a : Answer ℝ}
    (h1 : inStr "Concentration" v = false) (h2 : inStr "Emissions" v = false) (h3 : inStr "Forcing" v = true)
    (hc : variableDict.get? v = some c) (hn : c ≠ "Total_forcing+sunvolc") (ht : r.tables.get? "forcing" = some t)
    (h : getVariable r years v w = .ok a) :
    ∃ s, forcCommon t c variableDict [] [] = .ok s ∧ a = ⟨t.years, s, "W/m^2"⟩ := by
  have htE : Dict.getE r.tables "forcing" = .ok t := by unfold Dict.getE; rw [ht]
  unfold getVariable at h
  rw [h1, h2, h3, hc] at h
  simp only [Bool.false_eq_true, if_false, if_true] at h
  unfold fromForc at h
  rw [htE] at h
  simp only [bind_ok, if_neg hn] at h
  cases hs : forcCommon t c variableDict ([] : List ℝ) [] with
  | error e =>
    rw [hs] at h
    cases h
  | ok s =>
    rw [hs] at h
    simp only [bind_ok, pure_ok, Except.ok.injEq] at h
    exact ⟨s, rfl, h.symm⟩

theorem forcing_ok {r : Results ℝ} {years : List Int} {w : Units} {v c : String} {t : Df ℝ} {s : List ℝ}
    (h1 : inStr "Concentration" v = false) (h2 : inStr "Emissions" v = false) (h3 : inStr "Forcing" v = true)
    (hc : variableDict.get? v = some c) (hn : c ≠ "Total_forcing+sunvolc") (ht : r.tables.get? "forcing" = some t)
    (h : forcCommon t c variableDict [] [] = .ok s) : getVariable r years v w = .ok ⟨t.years, s, "W/m^2"⟩ := by
  have htE : Dict.getE r.tables "forcing" = .ok t := by unfold Dict.getE; rw [ht]
  unfold getVariable
  rw [h1, h2, h3, hc]
  simp only [Bool.false_eq_true, if_false, if_true]
  unfold fromForc
  simp only [htE, bind_ok, if_neg hn, h, pure_ok]

/-- **C51** The forcing of the fluorinated gases is in every year the sum of the forcings reported for the single
fluorinated gases. -/
theorem C51_fgas_partial {r : Results ℝ} (years : List Int) (w : Units) {t : Df ℝ}
    (ht : r.tables.get? "forcing" = some t) (hsq : Square t) : ∃ a : Answer ℝ,
    getVariable r years "Effective Radiative Forcing|Anthropogenic|F-Gases" w = .ok a ∧
    a.years = t.years ∧ a.series.length = t.years.length ∧ a.unit = "W/m^2" ∧ ∀ i < t.years.length,
      a.series.getD i 0 = ((below "Effective Radiative Forcing|Anthropogenic|F-Gases").map
        (fun v => reported r years w v i)).sum := by
  obtain ⟨s, e1, e2, e3⟩ := addPresent_spec hsq fgasList (acc := List.replicate t.years.length 0.0) (by simp)
  refine ⟨⟨t.years, s, "W/m^2"⟩, forcing_ok (c := "Fgas") ((inStr_lit _ _).trans (by decide +kernel))
    ((inStr_lit _ _).trans (by decide +kernel)) ((inStr_lit _ _).trans (by decide +kernel)) vd_fgas (by simp) ht ?_,
    rfl, e2, rfl, ?_⟩
  · unfold forcCommon
    rw [if_neg (by simp [forcSums]), if_pos rfl, e1]
  intro i hi
  rw [e3 i hi, zeros_getD, zero_add]
  exact (parts_sum ht i fgas_below.1 fgas_below.2).symm

/-- The greenhouse gases: CO2, methane, nitrous oxide, ozone, stratospheric water vapour, fluorinated gases and Montreal
gases. -/
def greenhouse : List String :=
  below "Effective Radiative Forcing|Anthropogenic|F-Gases" ++
  below "Effective Radiative Forcing|Anthropogenic|Montreal Gases" ++
  ["Effective Radiative Forcing|Anthropogenic|CO2", "Effective Radiative Forcing|Anthropogenic|CH4",
   "Effective Radiative Forcing|Anthropogenic|N2O",
   "Effective Radiative Forcing|Anthropogenic|Ozone|Tropospheric Contribution",
   "Effective Radiative Forcing|Anthropogenic|Ozone|Stratospheric Contribution",
   "Effective Radiative Forcing|Anthropogenic|Other|Stratospheric H2O"]

theorem greenhouse_plain : greenhouse.all plainForcing = true ∧ greenhouse.map (fun v => variableDict.get? v) =
    (fgasList ++ montrealList ++ ghgNotFgas).map some := by
  unfold greenhouse ghgNotFgas
  rw [List.all_append, List.all_append, fgas_below.1, montreal_below.1, List.map_append, List.map_append, fgas_below.2,
    montreal_below.2, List.map_append, List.map_append]
  constructor
  · simp only [Bool.true_and, List.all_cons, List.all_nil, Bool.and_true, Bool.and_eq_true]
    refine ⟨plain_lit ?_, plain_lit ?_, plain_lit ?_, plain_lit ?_, plain_lit ?_, plain_lit ?_⟩ <;> decide +kernel
  · refine congrArg₂ (· ++ ·) rfl ?_
    simp only [List.map_cons, List.map_nil]
    refine congrArg₂ List.cons (vd_lit ?_) (congrArg₂ List.cons (vd_lit ?_) (congrArg₂ List.cons (vd_lit ?_)
      (congrArg₂ List.cons (vd_lit ?_) (congrArg₂ List.cons (vd_lit ?_) (congrArg₂ List.cons (vd_lit ?_) rfl))))) <;>
    decide +kernel

/-- **C51** The forcing of the greenhouse gases is in every year the sum of the forcings reported for the single
greenhouse gases. -/
theorem C51_ghg_partial {r : Results ℝ} (years : List Int) (w : Units) {t : Df ℝ}
    (ht : r.tables.get? "forcing" = some t) (hsq : Square t) : ∃ a : Answer ℝ,
    getVariable r years "Effective Radiative Forcing|Greenhouse Gases" w = .ok a ∧
    a.years = t.years ∧ a.series.length = t.years.length ∧ a.unit = "W/m^2" ∧ ∀ i < t.years.length,
      a.series.getD i 0 = (greenhouse.map (fun v => reported r years w v i)).sum := by
  obtain ⟨s1, e1, e2, e3⟩ := addPresent_spec hsq fgasList (acc := List.replicate t.years.length 0.0) (by simp)
  obtain ⟨s2, f1, f2, f3⟩ := addPresent_spec hsq montrealList e2
  obtain ⟨s3, g1, g2, g3⟩ := addPresent_spec hsq ghgNotFgas f2
  refine ⟨⟨t.years, s3, "W/m^2"⟩, forcing_ok (c := "GHG") ((inStr_lit _ _).trans (by decide +kernel))
    ((inStr_lit _ _).trans (by decide +kernel)) ((inStr_lit _ _).trans (by decide +kernel)) vd_ghg (by simp) ht ?_,
    rfl, g2, rfl, ?_⟩
  · unfold forcCommon
    rw [if_neg (by simp [forcSums]), if_neg (by simp), if_pos rfl]
    simp only [e1, bind_ok, f1, g1]
  intro i hi
  rw [g3 i hi, f3 i hi, e3 i hi, zeros_getD, zero_add, ← List.sum_append, ← List.sum_append, ← List.map_append,
    ← List.map_append]
  exact (parts_sum ht i greenhouse_plain.1 greenhouse_plain.2).symm

/-- No gas is counted twice. -/
theorem C51_once : greenhouse.Nodup ∧ (greenhouse.map (fun v => variableDict.get? v)).Nodup := by
  have h : (greenhouse.map (fun v => variableDict.get? v)).Nodup := by
    rw [greenhouse_plain.2]
    apply List.Nodup.map (fun a b h => Option.some.inj h)
    apply List.Nodup.of_map code
    have e : ghgNotFgas.map code = [[67, 79, 50], [67, 72, 52], [78, 50, 79], [84, 82, 79, 80, 95, 79, 51],
        [83, 84, 82, 65, 84, 95, 79, 51], [83, 84, 82, 65, 84, 95, 72, 50, 79]] := by
      unfold ghgNotFgas
      simp only [List.map_cons, List.map_nil]
      repeat' (first | apply congrArg₂ List.cons ((code_ofList _).trans (by decide +kernel)) | rfl)
    rw [List.map_append, List.map_append, fgas_code, montreal_code, e]
    decide +kernel
  exact ⟨h.of_map _, h⟩

/-- **C51** The total is the anthropogenic forcing plus the mean of the two hemispheres' volcanic forcing plus the
solar forcing. -/
theorem C51_total {r : Results ℝ} {years : List Int} {w : Units} {t : Df ℝ} {a : Answer ℝ} {n s sun : List ℝ}
    (ht : r.tables.get? "forcing" = some t) (hsq : Square t) (hn : r.series.get? "Volcanic_forcing_NH" = some n)
    (hs : r.series.get? "Volcanic_forcing_SH" = some s) (hsun : r.series.get? "Solar_forcing" = some sun)
    (h : getVariable r years "Effective Radiative Forcing" w = .ok a) :
    ∀ i < t.years.length, a.series.getD i 0 =
      reported r years w "Effective Radiative Forcing|Anthropogenic" i + (n.getD i 0 + s.getD i 0) / 2 + sun.getD i 0 := by
  have htE : Dict.getE r.tables "forcing" = .ok t := by unfold Dict.getE; rw [ht]
  have hnE : Dict.getE r.series "Volcanic_forcing_NH" = .ok n := by unfold Dict.getE; rw [hn]
  have hsE : Dict.getE r.series "Volcanic_forcing_SH" = .ok s := by unfold Dict.getE; rw [hs]
  have hsunE : Dict.getE r.series "Solar_forcing" = .ok sun := by unfold Dict.getE; rw [hsun]
  have key := reported_plain (w := w) (years := years) (v := "Effective Radiative Forcing|Anthropogenic")
    (c := "Total_forcing") (plain_lit (by decide +kernel)) vd_anthropogenic ht
  have h1 : inStr "Concentration" "Effective Radiative Forcing" = false := (inStr_lit _ _).trans (by decide +kernel)
  have h2 : inStr "Emissions" "Effective Radiative Forcing" = false := (inStr_lit _ _).trans (by decide +kernel)
  have h3 : inStr "Forcing" "Effective Radiative Forcing" = true := (inStr_lit _ _).trans (by decide +kernel)
  have hc : variableDict.get? "Effective Radiative Forcing" = some "Total_forcing+sunvolc" := vd_total
  unfold getVariable at h
  rw [h1, h2, h3, hc] at h
  simp only [Bool.false_eq_true, if_false, if_true] at h
  unfold fromForc volcForcing sunForcing at h
  simp only [htE, hnE, hsE, hsunE, bind_ok, if_true] at h
  unfold forcCommon at h
  simp only [show ("Total_forcing+sunvolc" ∈ forcSums) = False from eq_false (by decide),
    show ("Total_forcing+sunvolc" = "Fgas") = False from eq_false (by decide),
    show ("Total_forcing+sunvolc" = "GHG") = False from eq_false (by decide), if_false, if_true] at h
  intro i hi
  rw [key i]
  unfold addArr at h
  split at h
  swap
  · cases h
  rename_i hlen
  simp only [bind_ok] at h
  split at h
  swap
  · cases h
  rename_i hlen2
  simp only [bind_ok, pure_ok] at h
  split at h
  swap
  · cases h
  rename_i hlen3
  simp only [bind_ok] at h
  unfold Dict.getE at h
  cases hT : t.cols.get? "Total_forcing" with
  | none =>
    rw [hT] at h
    cases h
  | some T =>
    rw [hT] at h
    have hTl := hsq _ _ hT
    simp only [bind_ok] at h
    split at h
    swap
    · cases h
    rename_i hlen4
    simp only [bind_ok] at h
    split at h
    swap
    · cases h
    rename_i hlen5
    simp only [bind_ok, Except.ok.injEq] at h
    subst h
    unfold colAt
    rw [hT]
    simp only [List.length_zipWith, List.length_map] at hlen2 hlen3 hlen4 hlen5
    have e1 : i < T.length := by omega
    have e2 : i < n.length := by omega
    have e3 : i < s.length := by omega
    have e4 : i < sun.length := by omega
    simp only [List.getD_eq_getElem?_getD, List.getElem?_zipWith, List.getElem?_map, List.getElem?_eq_getElem e1,
      List.getElem?_eq_getElem e2, List.getElem?_eq_getElem e3, List.getElem?_eq_getElem e4, Option.map_some,
      Option.getD_some]
    norm_num

/-- The request succeeds for a run of one year: 5 anthropogenic, 2 and 4 volcanic, 1 solar. -/
example (w : Units) : ∃ r : Results ℝ, ∃ t, r.tables.get? "forcing" = some t ∧ Square t ∧
    r.series.get? "Volcanic_forcing_NH" = some [2] ∧ r.series.get? "Volcanic_forcing_SH" = some [4] ∧
    r.series.get? "Solar_forcing" = some [1] ∧
    ∃ a, getVariable r [2000] "Effective Radiative Forcing" w = .ok a ∧ a.series = [5 + (2 + 4) / 2.0 + 1] := by
  refine ⟨⟨[("forcing", ⟨[2000], [("Total_forcing", [5])]⟩)],
    [("Volcanic_forcing_NH", [2]), ("Volcanic_forcing_SH", [4]), ("Solar_forcing", [1])]⟩, _, rfl, ?_, ?_, ?_, ?_,
    ⟨[2000], [5 + (2 + 4) / 2.0 + 1], "W/m^2"⟩, ?_, rfl⟩
  · intro c xs h
    have := mem_of_get? h
    simp only [List.mem_cons, List.not_mem_nil, or_false, Prod.mk.injEq] at this
    rw [this.2]
    rfl
  · simp [Dict.get?]
  · simp [Dict.get?]
  · simp [Dict.get?]
  · have h1 : inStr "Concentration" "Effective Radiative Forcing" = false := (inStr_lit _ _).trans (by decide +kernel)
    have h2 : inStr "Emissions" "Effective Radiative Forcing" = false := (inStr_lit _ _).trans (by decide +kernel)
    have h3 : inStr "Forcing" "Effective Radiative Forcing" = true := (inStr_lit _ _).trans (by decide +kernel)
    unfold getVariable
    rw [h1, h2, h3, vd_total]
    simp [fromForc, volcForcing, sunForcing, forcCommon, forcSums, addArr, Dict.getE, Dict.get?, bind_ok, pure_ok]

theorem sums_step (t : Df ℝ) (c : String) : ∀ (d : Dict String) (acc : List ℝ), d.foldlM (addSummand t c) acc =
    (d.filter (fun kv => inStr c kv.1 && decide (kv.2 ∉ forcSums))).foldlM
      (fun acc kv => do addArr acc (← t.cols.getE kv.2)) acc := by
  intro d
  induction d with
  | nil => intro acc; rfl
  | cons kv d ih =>
    intro acc
    rw [List.foldlM_cons, List.filter_cons]
    unfold addSummand
    split
    · rw [List.foldlM_cons]
      cases hx : (do addArr acc (← t.cols.getE kv.2) : Except PyErr (List ℝ)) with
      | error e => rw [bind_error, bind_error]
      | ok acc' =>
        rw [bind_ok, bind_ok]
        exact ih acc'
    · rw [bind_ok]
      exact ih acc

/-- As coded, both aerosol aggregates are the direct sulphate forcing. -/
theorem aerosol_sum {t : Df ℝ} (hsq : Square t) {c : String} (hc : c ∈ forcSums) {S : List ℝ}
    (hS : t.cols.get? "SO4_DIR" = some S) : ∃ s, forcCommon t c variableDict [] [] = .ok s ∧ s.length = t.years.length ∧
      ∀ i < t.years.length, s.getD i 0 = colAt t "SO4_DIR" i := by
  obtain ⟨z, z1, z2, z3⟩ := addArr_spec (xs := List.replicate t.years.length (0.0 : ℝ)) (ys := S)
    (n := t.years.length) (by simp) (hsq _ _ hS)
  have hE : Dict.getE t.cols "SO4_DIR" = .ok S := by unfold Dict.getE; rw [hS]
  refine ⟨z, ?_, z2, ?_⟩
  · unfold forcCommon
    rw [if_pos hc, sums_step, sums_filter hc]
    simp only [List.foldlM_cons, List.foldlM_nil, hE, bind_ok, z1, pure_ok]
  · intro i hi
    unfold colAt
    rw [hS, z3 i hi, zeros_getD, zero_add]

/-- A result table with one year and four aerosol components. -/
noncomputable def aerosolTable : Df ℝ :=
  ⟨[2000], [("BC", [3]), ("OC", [-1]), ("SO4_DIR", [-4]), ("SO4_IND", [-7])]⟩

/-- Results with that table. -/
noncomputable def aerosolResults : Results ℝ := ⟨[("forcing", aerosolTable)], []⟩

theorem aerosol_square : Square aerosolTable := by
  intro c xs h
  have : (c, xs) ∈ aerosolTable.cols := mem_of_get? h
  unfold aerosolTable at this ⊢
  simp only [List.mem_cons, List.not_mem_nil, or_false, Prod.mk.injEq] at this
  rcases this with ⟨-, rfl⟩ | ⟨-, rfl⟩ | ⟨-, rfl⟩ | ⟨-, rfl⟩ <;> rfl

theorem aerosol_forcing : aerosolResults.tables.get? "forcing" = some aerosolTable := rfl

theorem aerosol_request {v c : String} (hc : c ∈ forcSums) (h1 : inStr "Concentration" v = false)
    (h2 : inStr "Emissions" v = false) (h3 : inStr "Forcing" v = true) (h4 : variableDict.get? v = some c) (w : Units) :
    ∃ a, getVariable aerosolResults [2000] v w = .ok a ∧ a.series.getD 0 0 = -4 := by
  obtain ⟨s, hs, -, hv⟩ := aerosol_sum aerosol_square hc (S := [-4]) (by simp [aerosolTable, Dict.get?])
  refine ⟨⟨[2000], s, "W/m^2"⟩, ?_, ?_⟩
  · refine forcing_ok h1 h2 h3 h4 ?_ aerosol_forcing hs
    rintro rfl
    simp [forcSums] at hc
  · have := hv 0 (by decide)
    show s.getD 0 0 = -4
    rw [this]
    simp [colAt, aerosolTable, Dict.get?]

theorem ari_request (w : Units) : ∃ a, getVariable aerosolResults [2000]
    "Effective Radiative Forcing|Anthropogenic|Aerosol|Aerosol-radiation Interactions" w = .ok a ∧
      a.series.getD 0 0 = -4 :=
  aerosol_request (c := "Aerosols|Direct Effect") (by simp [forcSums]) ((inStr_lit _ _).trans (by decide +kernel))
    ((inStr_lit _ _).trans (by decide +kernel)) ((inStr_lit _ _).trans (by decide +kernel)) vd_ari w

theorem aer_request (w : Units) : ∃ a, getVariable aerosolResults [2000]
    "Effective Radiative Forcing|Anthropogenic|Aerosol" w = .ok a ∧ a.series.getD 0 0 = -4 :=
  aerosol_request (c := "Aerosols") (by simp [forcSums]) ((inStr_lit _ _).trans (by decide +kernel))
    ((inStr_lit _ _).trans (by decide +kernel)) ((inStr_lit _ _).trans (by decide +kernel)) vd_aerosol w

theorem ari_parts (w : Units) :
    ((below "Effective Radiative Forcing|Anthropogenic|Aerosol|Aerosol-radiation Interactions").map
        (fun v => reported aerosolResults [2000] w v 0)).sum = -2 := by
  rw [parts_sum aerosol_forcing 0 ari_below.1 ari_below.2]
  have e1 : colAt aerosolTable "BC" 0 = 3 := by simp [colAt, aerosolTable, Dict.get?]
  have e2 : colAt aerosolTable "OC" 0 = -1 := by simp [colAt, aerosolTable, Dict.get?]
  have e3 : colAt aerosolTable "SO4_DIR" 0 = -4 := by simp [colAt, aerosolTable, Dict.get?]
  simp only [List.map_cons, List.map_nil, List.sum_cons, List.sum_nil, e1, e2, e3]
  norm_num

theorem ari_value (w : Units) : reported aerosolResults [2000] w
    "Effective Radiative Forcing|Anthropogenic|Aerosol|Aerosol-radiation Interactions" 0 = -4 := by
  obtain ⟨a, h1, h2⟩ := ari_request w
  exact (reported_of_ok h1 0).trans h2

theorem aci_value (w : Units) : reported aerosolResults [2000] w
    "Effective Radiative Forcing|Anthropogenic|Aerosol|Aerosol-cloud Interactions" 0 = -7 := by
  rw [reported_plain (c := "SO4_IND") (plain_lit (by decide +kernel)) vd_aci aerosol_forcing]
  simp [colAt, aerosolTable, Dict.get?]

/-- **C51** as coded does not hold for aerosols: the aggregate "Aerosol-radiation Interactions" is not the sum of the
black carbon, organic carbon and sulphate forcings below it, and "Aerosol" is not the sum of the two interactions. Both
are the direct sulphate forcing. -/
theorem C51_aerosol_false : ∃ r : Results ℝ, ∃ t, r.tables.get? "forcing" = some t ∧ Square t ∧ ∀ w,
    (∃ a, getVariable r [2000] "Effective Radiative Forcing|Anthropogenic|Aerosol|Aerosol-radiation Interactions" w = .ok a ∧
      a.series.getD 0 0 ≠ ((below "Effective Radiative Forcing|Anthropogenic|Aerosol|Aerosol-radiation Interactions").map
        (fun v => reported r [2000] w v 0)).sum) ∧
    ∃ a, getVariable r [2000] "Effective Radiative Forcing|Anthropogenic|Aerosol" w = .ok a ∧
      a.series.getD 0 0 ≠
        reported r [2000] w "Effective Radiative Forcing|Anthropogenic|Aerosol|Aerosol-radiation Interactions" 0 +
        reported r [2000] w "Effective Radiative Forcing|Anthropogenic|Aerosol|Aerosol-cloud Interactions" 0 := by
  refine ⟨aerosolResults, aerosolTable, aerosol_forcing, aerosol_square, fun w => ⟨?_, ?_⟩⟩
  · obtain ⟨a, h1, h2⟩ := ari_request w
    refine ⟨a, h1, ?_⟩
    rw [h2, ari_parts]
    norm_num
  · obtain ⟨a, h1, h2⟩ := aer_request w
    refine ⟨a, h1, ?_⟩
    rw [h2, ari_value, aci_value]
    norm_num

/-! ## C52 -/

theorem cumsum_getD (acc : ℝ) : ∀ (xs : List ℝ) (i : Nat), i < xs.length →
    (cumsum acc xs).getD i 0 = acc + (xs.take (i + 1)).sum := by
  intro xs
  induction xs generalizing acc with
  | nil => intro i h; cases h
  | cons x xs ih =>
    intro i h
    cases i with
    | zero => simp [cumsum]
    | succ i =>
      unfold cumsum
      rw [List.getD_cons_succ, ih (acc + x) i (by simpa using h), List.take_succ_cons, List.sum_cons]
      ring

theorem cumsum_length (acc : ℝ) (xs : List ℝ) : (cumsum acc xs).length = xs.length := by
  induction xs generalizing acc with
  | nil => rfl
  | cons x xs ih => simp [cumsum, ih]

/-- What a request for a carbon variable returns. -/
theorem carbon_request {r : Results ℝ} {years : List Int} {w : Units} {v c : String} {t : Df ℝ}
    (h1 : inStr "Concentration" v = false) (h2 : inStr "Emissions" v = false) (h3 : inStr "Forcing" v = false)
    (hc : carbonOutputs.get? v = some c) (ht : r.tables.get? "carbon cycle" = some t) :
    getVariable r years v w = (do let d ← carbonOutput t c; return ⟨years, d.1, d.2⟩ : Except PyErr (Answer ℝ)) := by
  unfold getVariable
  rw [h1, h2, h3, hc, ht]
  rfl

/-- The variable for the flux to the land (to the ocean). -/
def fluxName : Bool → String
  | true => "Carbon Flux|Land"
  | false => "Carbon Flux|Ocean"

/-- The variable for the land (ocean) carbon pool. -/
def poolName : Bool → String
  | true => "Carbon Pool|Land"
  | false => "Carbon Pool|Ocean"

/-- **C52** The land (ocean) carbon pool of a year is the sum of the reported land (ocean) fluxes up to and including
that year. -/
theorem C52_pool {r : Results ℝ} {years : List Int} {w : Units} {t : Df ℝ} (land : Bool)
    (ht : r.tables.get? "carbon cycle" = some t) {a b : Answer ℝ}
    (h1 : getVariable r years (fluxName land) w = .ok a) (h2 : getVariable r years (poolName land) w = .ok b) :
    b.years = years ∧ a.years = years ∧ b.series.length = a.series.length ∧ a.unit = "Pg C / yr" ∧ b.unit = "Pg C" ∧
      ∀ i < a.series.length, b.series.getD i 0 = ((List.range (i + 1)).map (fun j => a.series.getD j 0)).sum := by
  obtain ⟨flux, hf1, hf2⟩ : ∃ flux, carbonOutputs.get? (fluxName land) = some flux ∧
      endsWith flux "flux" = true ∧ ∃ pool, carbonOutputs.get? (poolName land) = some pool ∧
      endsWith pool "flux" = false ∧ endsWith pool "pool" = true ∧ replace pool "pool" "flux" = flux := by
    cases land
    · exact ⟨"Ocean carbon flux", by simp [carbonOutputs, Dict.get?, fluxName], (endsWith_lit _ _).trans (by decide +kernel),
        "Ocean carbon pool", by simp [carbonOutputs, Dict.get?, poolName], (endsWith_lit _ _).trans (by decide +kernel),
        (endsWith_lit _ _).trans (by decide +kernel), replace_lit (by decide +kernel)⟩
    · exact ⟨"Biosphere carbon flux", by simp [carbonOutputs, Dict.get?, fluxName], (endsWith_lit _ _).trans (by decide +kernel),
        "Biosphere carbon pool", by simp [carbonOutputs, Dict.get?, poolName], (endsWith_lit _ _).trans (by decide +kernel),
        (endsWith_lit _ _).trans (by decide +kernel), replace_lit (by decide +kernel)⟩
  obtain ⟨hf3, pool, hp1, hp2, hp3, hp4⟩ := hf2
  have n1 : inStr "Concentration" (fluxName land) = false := by
    cases land <;> exact (inStr_lit _ _).trans (by decide +kernel)
  have n2 : inStr "Emissions" (fluxName land) = false := by
    cases land <;> exact (inStr_lit _ _).trans (by decide +kernel)
  have n3 : inStr "Forcing" (fluxName land) = false := by
    cases land <;> exact (inStr_lit _ _).trans (by decide +kernel)
  have n4 : inStr "Concentration" (poolName land) = false := by
    cases land <;> exact (inStr_lit _ _).trans (by decide +kernel)
  have n5 : inStr "Emissions" (poolName land) = false := by
    cases land <;> exact (inStr_lit _ _).trans (by decide +kernel)
  have n6 : inStr "Forcing" (poolName land) = false := by
    cases land <;> exact (inStr_lit _ _).trans (by decide +kernel)
  rw [carbon_request n1 n2 n3 hf1 ht] at h1
  rw [carbon_request n4 n5 n6 hp1 ht] at h2
  unfold carbonOutput at h1 h2
  rw [if_pos hf3] at h1
  rw [hp2, hp3, hp4] at h2
  simp only [Bool.false_eq_true, if_false, if_true] at h2
  cases hx : t.cols.getE flux with
  | error e =>
    rw [hx] at h1
    cases h1
  | ok xs =>
    rw [hx] at h1 h2
    simp only [bind_ok, pure_ok, Except.ok.injEq] at h1 h2
    subst h1 h2
    refine ⟨rfl, rfl, cumsum_length _ _, rfl, rfl, ?_⟩
    intro i hi
    show (cumsum (0.0 : ℝ) xs).getD i 0 = _
    rw [cumsum_getD _ _ _ hi, show (0.0 : ℝ) = 0 by norm_num, zero_add]
    congr 1
    apply List.ext_getElem?
    intro j
    rw [List.getElem?_map]
    by_cases hj : j < i + 1
    · have hjx : j < xs.length := by show j < _; change i < xs.length at hi; omega
      rw [List.getElem?_take_of_lt hj, List.getElem?_range hj, Option.map_some, List.getD_eq_getElem?_getD,
        List.getElem?_eq_getElem hjx, Option.getD_some]
    · rw [List.getElem?_eq_none (by rw [List.length_take]; omega), List.getElem?_eq_none (by rw [List.length_range]; omega)]
      rfl

/-- **C52** The net flux to the atmosphere is minus the land flux minus the ocean flux, in every year. -/
theorem C52_net {r : Results ℝ} {years : List Int} {w : Units} {t : Df ℝ}
    (ht : r.tables.get? "carbon cycle" = some t) (hsq : Square t) {a l o : Answer ℝ}
    (h1 : getVariable r years "Net Flux to Atmosphere|CO2" w = .ok a)
    (h2 : getVariable r years "Carbon Flux|Land" w = .ok l) (h3 : getVariable r years "Carbon Flux|Ocean" w = .ok o) :
    a.series.length = l.series.length ∧ a.unit = "Pg C / yr" ∧
      ∀ i, a.series.getD i 0 = -l.series.getD i 0 - o.series.getD i 0 := by
  rw [carbon_request (c := "Net flux to atmosphere") ((inStr_lit _ _).trans (by decide +kernel))
    ((inStr_lit _ _).trans (by decide +kernel)) ((inStr_lit _ _).trans (by decide +kernel))
    (by simp [carbonOutputs, Dict.get?]) ht] at h1
  rw [carbon_request (c := "Biosphere carbon flux") ((inStr_lit _ _).trans (by decide +kernel))
    ((inStr_lit _ _).trans (by decide +kernel)) ((inStr_lit _ _).trans (by decide +kernel))
    (by simp [carbonOutputs, Dict.get?]) ht] at h2
  rw [carbon_request (c := "Ocean carbon flux") ((inStr_lit _ _).trans (by decide +kernel))
    ((inStr_lit _ _).trans (by decide +kernel)) ((inStr_lit _ _).trans (by decide +kernel))
    (by simp [carbonOutputs, Dict.get?]) ht] at h3
  unfold carbonOutput at h1 h2 h3
  have e1 : endsWith "Net flux to atmosphere" "flux" = false := (endsWith_lit _ _).trans (by decide +kernel)
  have e2 : endsWith "Net flux to atmosphere" "pool" = false := (endsWith_lit _ _).trans (by decide +kernel)
  have e3 : endsWith "Biosphere carbon flux" "flux" = true := (endsWith_lit _ _).trans (by decide +kernel)
  have e4 : endsWith "Ocean carbon flux" "flux" = true := (endsWith_lit _ _).trans (by decide +kernel)
  rw [e1, e2] at h1
  simp only [Bool.false_eq_true, if_false, if_true] at h1
  rw [if_pos e3] at h2
  rw [if_pos e4] at h3
  unfold Dict.getE at h1 h2 h3
  cases hb : t.cols.get? "Biosphere carbon flux" with
  | none => rw [hb] at h2; cases h2
  | some B =>
    cases ho : t.cols.get? "Ocean carbon flux" with
    | none => rw [ho] at h3; cases h3
    | some O =>
      rw [hb] at h1 h2
      rw [ho] at h1 h3
      simp only [bind_ok, pure_ok, Except.ok.injEq] at h1 h2 h3
      subst h1 h2 h3
      have e1 := hsq _ _ hb
      have e2 := hsq _ _ ho
      refine ⟨by simp [e1, e2], rfl, ?_⟩
      intro i
      simp only [List.getD_eq_getElem?_getD, List.getElem?_zipWith]
      by_cases hi : i < t.years.length
      · rw [List.getElem?_eq_getElem (by omega : i < B.length), List.getElem?_eq_getElem (by omega : i < O.length)]
        rfl
      · rw [List.getElem?_eq_none (by omega : B.length ≤ i), List.getElem?_eq_none (by omega : O.length ≤ i)]
        simp

/-- Results with all the tables the theorems above ask for. -/
example : ∃ r : Results ℝ, ∃ f c : Df ℝ, r.tables.get? "forcing" = some f ∧ Square f ∧
    r.tables.get? "carbon cycle" = some c ∧ Square c ∧ c.years.length = 3 ∧
    (∀ w, (∃ a, getVariable r c.years "Carbon Pool|Land" w = .ok a ∧ a.series.getD 2 0 = 6) ∧
      ∃ a, getVariable r c.years "Net Flux to Atmosphere|CO2" w = .ok a ∧ a.series.getD 1 0 = -7) := by
  refine ⟨⟨[("forcing", aerosolTable), ("carbon cycle", ⟨[2000, 2001, 2002],
    [("Biosphere carbon flux", [1, 2, 3]), ("Ocean carbon flux", [4, 5, 6])]⟩)], []⟩, aerosolTable, _, rfl, ?_, rfl, ?_, rfl, ?_⟩
  · intro c xs h
    have : (c, xs) ∈ aerosolTable.cols := mem_of_get? h
    unfold aerosolTable at this ⊢
    simp only [List.mem_cons, List.not_mem_nil, or_false, Prod.mk.injEq] at this
    rcases this with ⟨-, rfl⟩ | ⟨-, rfl⟩ | ⟨-, rfl⟩ | ⟨-, rfl⟩ <;> rfl
  · intro c xs h
    have := mem_of_get? h
    simp only [List.mem_cons, List.not_mem_nil, or_false, Prod.mk.injEq] at this
    rcases this with ⟨-, rfl⟩ | ⟨-, rfl⟩ <;> rfl
  · intro w
    rw [carbon_request (c := "Biosphere carbon pool") ((inStr_lit _ _).trans (by decide +kernel))
    ((inStr_lit _ _).trans (by decide +kernel)) ((inStr_lit _ _).trans (by decide +kernel))
    (by simp [carbonOutputs, Dict.get?]) rfl, carbon_request (c := "Net flux to atmosphere") ((inStr_lit _ _).trans (by decide +kernel))
    ((inStr_lit _ _).trans (by decide +kernel)) ((inStr_lit _ _).trans (by decide +kernel))
    (by simp [carbonOutputs, Dict.get?]) rfl]
    unfold carbonOutput
    have e1 : endsWith "Biosphere carbon pool" "flux" = false := (endsWith_lit _ _).trans (by decide +kernel)
    have e2 : endsWith "Biosphere carbon pool" "pool" = true := (endsWith_lit _ _).trans (by decide +kernel)
    have e3 : replace "Biosphere carbon pool" "pool" "flux" = "Biosphere carbon flux" := replace_lit (by decide +kernel)
    have e4 : endsWith "Net flux to atmosphere" "flux" = false := (endsWith_lit _ _).trans (by decide +kernel)
    have e5 : endsWith "Net flux to atmosphere" "pool" = false := (endsWith_lit _ _).trans (by decide +kernel)
    rw [e1, e2, e3, e4, e5]
    refine ⟨⟨_, rfl, ?_⟩, ⟨_, rfl, ?_⟩⟩
    · show (cumsum (0.0 : ℝ) [1, 2, 3]).getD 2 0 = 6
      simp [cumsum]
      norm_num
    · show (List.zipWith (fun b o : ℝ => -b - o) [1, 2, 3] [4, 5, 6]).getD 1 0 = -7
      simp
      norm_num

end Verif.Props
