import Verif.Model.PubUtils
import Verif.Lemmas.Dict
import Verif.Lemmas.Except
import Verif.Lemmas.Strings

/-!
# C55: regional aerosol tables extend the gas table without changing it

(The second half of C55, no double counting, is in `Verif/Props/Aerosols.lean`.)
-/

namespace Verif.Props
open Verif.Py Verif.Model.PubUtils

variable {F : Type} [Mul F]

/-- The name of the row of aerosol `col` in region `key`. -/
def regionalName (col key : String) : String := col ++ "_" ++ key

/-- Names of different aerosol/region pairs differ, if region names contain no underscore. -/
theorem regionalName_inj {c c' k k' : String} (hk : '_' ∉ k.toList) (hk' : '_' ∉ k'.toList)
    (h : regionalName c k = regionalName c' k') : c = c' ∧ k = k' := by
  have h1 := congrArg (fun s => s.toList.reverse) h
  simp only [regionalName, String.toList_append, List.reverse_append, List.append_assoc] at h1
  have h2 : k.toList.reverse ++ '_' :: c.toList.reverse = k'.toList.reverse ++ '_' :: c'.toList.reverse := h1
  obtain ⟨e1, e2⟩ := append_sep_inj (by simpa using hk) (by simpa using hk') h2
  exact ⟨String.toList_inj.1 (List.reverse_inj.1 e2), String.toList_inj.1 (List.reverse_inj.1 e1)⟩

/-- The row a region must have: the parent's, with the regional efficiency in column ALPHA. -/
def IsRegionalRow (r parent : GasRow F) (a unit : F) : Prop :=
  Dict.get? r "ALPHA" = some (.flt (a * unit)) ∧
  ∀ c, c ≠ "ALPHA" → Dict.get? r c = Dict.get? parent c

theorem regionLoop_spec (reg : RegTable F) (unit : F) (col : String) (mapping : Dict String)
    (hw : Dict.WF mapping) (hu : ∀ k ∈ Dict.keys mapping, '_' ∉ k.toList) :
    ∀ (row : GasRow F) (gases out : Dict (GasRow F)),
      regionLoop reg unit col mapping row gases = .ok out →
      (∀ n, (∀ k ∈ Dict.keys mapping, n ≠ regionalName col k) →
        Dict.get? out n = Dict.get? gases n) ∧
      (∀ k e, (k, e) ∈ mapping → ∃ a r, reg.value col e = some a ∧
        Dict.get? out (regionalName col k) = some r ∧ IsRegionalRow r row a unit) := by
  induction mapping with
  | nil =>
    intro row gases out h
    simp only [regionLoop, Except.ok.injEq] at h
    subst h
    exact ⟨fun _ _ => rfl, fun _ _ h => absurd h (by simp)⟩
  | cons p mapping ih =>
    intro row gases out h
    obtain ⟨k0, e0⟩ := p
    rw [Dict.WF_cons] at hw
    rw [regionLoop] at h
    cases ha : reg.value col e0 with
    | none => rw [ha] at h; cases h
    | some a =>
      rw [ha] at h
      simp only at h
      obtain ⟨i1, i2⟩ := ih hw.2 (fun k hk => hu k (by simp [Dict.keys] at hk ⊢; exact .inr hk)) _ _ _ h
      constructor
      · intro n hn
        rw [i1 n (fun k hk => hn k (by simp [Dict.keys] at hk ⊢; exact .inr hk)), Dict.get?_set,
          if_neg (fun e => hn k0 (by simp [Dict.keys]) e.symm)]
      · intro k e hke
        rcases List.mem_cons.1 hke with hke | hke
        · obtain ⟨rfl, rfl⟩ := Prod.mk.inj hke
          refine ⟨a, Dict.set row "ALPHA" (.flt (a * unit)), ha, ?_, ?_, ?_⟩
          · rw [i1]
            · rw [Dict.get?_set]; simp [regionalName]
            · intro k' hk' e
              have hk0 : '_' ∉ k.toList := hu k (by simp [Dict.keys])
              have := (regionalName_inj hk0 (hu k' (by simp [Dict.keys] at hk' ⊢; exact .inr hk')) e).2
              exact hw.1 (this ▸ hk')
          · rw [Dict.get?_set]; simp
          · intro c hc
            rw [Dict.get?_set, if_neg (Ne.symm hc)]
        · obtain ⟨a', r, h1, h2, h3, h4⟩ := i2 k e hke
          refine ⟨a', r, h1, h2, h3, fun c hc => ?_⟩
          rw [h4 c hc, Dict.get?_set, if_neg (Ne.symm hc)]

theorem columnLoop_spec (original : Dict (GasRow F)) (reg : RegTable F) (unit : F)
    (mapping : Dict String) (hw : Dict.WF mapping) (hu : ∀ k ∈ Dict.keys mapping, '_' ∉ k.toList)
    (cols : List String) (hn : cols.Nodup) :
    ∀ (gases out : Dict (GasRow F)), columnLoop original reg mapping unit cols gases = .ok out →
      (∀ n, (∀ c ∈ cols, ∀ k ∈ Dict.keys mapping, n ≠ regionalName c k) →
        Dict.get? out n = Dict.get? gases n) ∧
      (∀ c ∈ cols, ∀ k e, (k, e) ∈ mapping → ∃ a r parent, reg.value c e = some a ∧
        Dict.get? original c = some parent ∧
        Dict.get? out (regionalName c k) = some r ∧ IsRegionalRow r parent a unit) := by
  induction cols with
  | nil =>
    intro gases out h
    simp only [columnLoop, Except.ok.injEq] at h
    subst h
    exact ⟨fun _ _ => rfl, fun _ h => absurd h (by simp)⟩
  | cons c0 cols ih =>
    intro gases out h
    rw [List.nodup_cons] at hn
    rw [columnLoop, bind_eq_ok] at h
    obtain ⟨row, hrow, h⟩ := h
    rw [bind_eq_ok] at h
    obtain ⟨gases', hg, h⟩ := h
    obtain ⟨i1, i2⟩ := ih hn.2 _ _ h
    obtain ⟨j1, j2⟩ := regionLoop_spec reg unit c0 mapping hw hu _ _ _ hg
    have hparent : Dict.get? original c0 = some row := by
      unfold Dict.getE at hrow
      cases hc : Dict.get? original c0 with
      | none => rw [hc] at hrow; cases hrow
      | some r => rw [hc] at hrow; simp only [Except.ok.injEq] at hrow; rw [hrow]
    constructor
    · intro n hnn
      rw [i1 n (fun c hc => hnn c (by simp [hc])), j1 n (hnn c0 (by simp))]
    · intro c hc k e hke
      rcases List.mem_cons.1 hc with rfl | hc
      · obtain ⟨a, r, h1, h2, h3⟩ := j2 k e hke
        refine ⟨a, r, row, h1, hparent, ?_, h3⟩
        rw [i1, h2]
        intro c' hc' k' hk' e'
        have hk : k ∈ Dict.keys mapping := List.mem_map.2 ⟨(k, e), hke, rfl⟩
        have := (regionalName_inj (hu k hk) (hu k' hk') e').1
        exact hn.1 (this ▸ hc')
      · exact i2 c hc k e hke

/-- C55: every row of the gas table that is not itself one of the regional rows is kept unchanged,
and no other row appears. -/
theorem C55_keeps_rows (gases out : Dict (GasRow F)) (reg : RegTable F)
    (mapping : Option (Dict String)) (unit : F) (hw : Dict.WF (mapping.getD regMappingDefault))
    (hu : ∀ k ∈ Dict.keys (mapping.getD regMappingDefault), '_' ∉ k.toList)
    (hn : reg.columns.Nodup) (h : makeRegional gases reg mapping unit = .ok out) (name : String)
    (hname : ∀ c ∈ reg.columns, ∀ k ∈ Dict.keys (mapping.getD regMappingDefault),
      name ≠ regionalName c k) :
    Dict.get? out name = Dict.get? gases name :=
  (columnLoop_spec gases reg unit _ hw hu _ hn _ _ h).1 name hname

/-- C55: for every listed aerosol and every region there is a row with the regional efficiency (in
model units) in the sensitivity column and the parent aerosol's values in all others. -/
theorem C55_adds_rows (gases out : Dict (GasRow F)) (reg : RegTable F)
    (mapping : Option (Dict String)) (unit : F) (hw : Dict.WF (mapping.getD regMappingDefault))
    (hu : ∀ k ∈ Dict.keys (mapping.getD regMappingDefault), '_' ∉ k.toList)
    (hn : reg.columns.Nodup) (h : makeRegional gases reg mapping unit = .ok out)
    (col : String) (hc : col ∈ reg.columns) (region source : String)
    (hr : Dict.get? (mapping.getD regMappingDefault) region = some source) :
    ∃ a row parent, reg.value col source = some a ∧ Dict.get? gases col = some parent ∧
      Dict.get? out (regionalName col region) = some row ∧ IsRegionalRow row parent a unit :=
  (columnLoop_spec gases reg unit _ hw hu _ hn _ _ h).2 col hc region source (Dict.mem_of_get? hr)

/-- C55: the call succeeds whenever every aerosol is in the gas table and has all regional values. -/
theorem C55_succeeds (gases : Dict (GasRow F)) (reg : RegTable F) (mapping : Option (Dict String))
    (unit : F) (h1 : ∀ c ∈ reg.columns, c ∈ Dict.keys gases)
    (h2 : ∀ c ∈ reg.columns, ∀ k e, (k, e) ∈ mapping.getD regMappingDefault →
      ∃ a, reg.value c e = some a) :
    ∃ out, makeRegional gases reg mapping unit = .ok out := by
  have inner : ∀ (col : String) (m : Dict String) (row : GasRow F) (g : Dict (GasRow F)),
      (∀ k e, (k, e) ∈ m → ∃ a, reg.value col e = some a) →
      ∃ out, regionLoop reg unit col m row g = .ok out := by
    intro col m
    induction m with
    | nil => intro row g _; exact ⟨g, rfl⟩
    | cons p m ih =>
      intro row g h
      obtain ⟨k, e⟩ := p
      obtain ⟨a, ha⟩ := h k e (by simp)
      rw [regionLoop, ha]
      exact ih _ _ (fun k' e' hm => h k' e' (by simp [hm]))
  have outer : ∀ (cols : List String) (g : Dict (GasRow F)), (∀ c ∈ cols, c ∈ reg.columns) →
      ∃ out, columnLoop gases reg (mapping.getD regMappingDefault) unit cols g = .ok out := by
    intro cols
    induction cols with
    | nil => intro g _; exact ⟨g, rfl⟩
    | cons c cols ih =>
      intro g h
      obtain ⟨row, hrow⟩ := (Dict.get?_isSome_iff _ _).2 (h1 c (h c (by simp)))
      obtain ⟨g', hg'⟩ := inner c (mapping.getD regMappingDefault) row g (h2 c (h c (by simp)))
      obtain ⟨out, ho⟩ := ih g' (fun c' hc' => h c' (by simp [hc']))
      refine ⟨out, ?_⟩
      rw [columnLoop, show Dict.getE gases c = .ok row by unfold Dict.getE; rw [hrow], bind_ok, hg',
        bind_ok, ho]
  exact outer reg.columns gases (fun _ h => h)

/-- The default regions satisfy the hypotheses on region names. -/
example : Dict.WF (Option.getD (none : Option (Dict String)) regMappingDefault) ∧
    ∀ k ∈ Dict.keys (Option.getD (none : Option (Dict String)) regMappingDefault),
      '_' ∉ k.toList := by decide +kernel

/-- A gas table with two aerosols, one of them given regionally. -/
example (x y : F) : ∃ out, makeRegional
    [("SO2", [("ALPHA", .flt x), ("TAU1", .flt y)]), ("BC", [("ALPHA", .flt y)])]
    ⟨["SO2"], fun _ _ => some x⟩ none y = .ok out ∧
    Dict.get? out "BC" = some [("ALPHA", .flt y)] := by
  obtain ⟨out, ho⟩ := C55_succeeds
    [("SO2", [("ALPHA", .flt x), ("TAU1", .flt y)]), ("BC", [("ALPHA", .flt y)])]
    ⟨["SO2"], fun _ _ => some x⟩ none y (by simp [Dict.keys]) (fun _ _ _ _ _ => ⟨x, rfl⟩)
  refine ⟨out, ho, ?_⟩
  rw [C55_keeps_rows _ out _ none y (by decide +kernel) (by decide +kernel) (by simp) ho]
  · simp [Dict.get?]
  · simp [regMappingDefault, Dict.keys, regionalName]

end Verif.Props
