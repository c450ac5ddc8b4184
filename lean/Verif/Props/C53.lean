import Verif.Model.PubUtils
import Verif.Lemmas.Dict
import Verif.Lemmas.Except
import Verif.Lemmas.Strings
import Mathlib.Data.Int.Notation
import Mathlib.Data.Nat.Notation

/-!
# C53: halogen atom counts follow the chemical naming rules
-/

namespace Verif.Props
open Verif.Py Verif.Model.PubUtils

theorem afterLast_none {pat l : List Char} (h : ¬ pat <:+: l) : afterLast pat l = none := by
  induction l with
  | nil => rfl
  | cons c l ih =>
    rw [afterLast, ih fun e => h (List.infix_cons_iff.2 (.inr e))]
    simp only
    rw [if_neg]
    intro e
    exact h (List.isPrefixOf_iff_prefix.1 e).isInfix

theorem afterLast_isSome {pat l : List Char} (hp : pat ≠ []) :
    (afterLast pat l).isSome = true ↔ pat <:+: l := by
  constructor
  · intro h
    by_contra hn
    rw [afterLast_none hn] at h
    cases h
  · intro h
    induction l with
    | nil => exact absurd (List.eq_nil_of_infix_nil h) hp
    | cons c l ih =>
      rw [afterLast]
      cases hl : afterLast pat l with
      | some r => rfl
      | none =>
        rcases List.infix_cons_iff.1 h with h' | h'
        · simp only; rw [if_pos (List.isPrefixOf_iff_prefix.2 h')]; rfl
        · have := ih h'; rw [hl] at this; cases this

theorem afterLast_append {pat b : List Char} (hp : pat ≠ []) (h : ¬ pat <:+: (pat ++ b).tail)
    (a : List Char) : afterLast pat (a ++ (pat ++ b)) = some b := by
  have h0 : afterLast pat (pat ++ b) = some b := by
    cases pat with
    | nil => exact absurd rfl hp
    | cons c pat =>
      rw [List.cons_append, afterLast]
      rw [List.cons_append, List.tail_cons] at h
      rw [afterLast_none h]
      simp only
      rw [if_pos (List.isPrefixOf_iff_prefix.2 (⟨b, rfl⟩ : c :: pat <+: c :: (pat ++ b)))]
      simp
  induction a with
  | nil => exact h0
  | cons c a ih => rw [List.cons_append, afterLast, ih]

theorem pyInt_toDigits (n : ℕ) : pyInt (Nat.toDigits 10 n) = .ok n := by
  unfold pyInt
  have h1 : (Nat.toDigits 10 n).isEmpty = false := by
    rw [List.isEmpty_eq_false_iff]; exact Nat.toDigits_ne_nil
  have h2 : (Nat.toDigits 10 n).all Char.isDigit = true := by
    rw [List.all_eq_true]
    intro c hc
    exact Nat.isDigit_of_mem_toDigits (by decide) (by decide) hc
  rw [h1, h2, Nat.ofDigitChars_ten_toDigits]
  rfl

/-- A suffix allowed in a compound name: nothing, or one character that is neither a digit nor a
hyphen (for example `HCFC-141b`). -/
def IsomerSuffix (s : List Char) : Prop := s = [] ∨ ∃ c, s = [c] ∧ c.isDigit = false ∧ c ≠ '-'

/-- The number in the name of a halocarbon with `d` double bonds, `c` carbon, `h` hydrogen and `f`
fluorine atoms: its digits are `d`, `c - 1`, `h + 1`, `f` (leading zeros are not written). -/
def compoundCode (d c h f : ℕ) : ℕ := 1000 * d + 100 * (c - 1) + 10 * (h + 1) + f

/-- C53: for every composition the chlorine count derived from the name is the number of valences not
taken by hydrogen or fluorine: `c` carbon atoms joined by single and `d` double bonds leave
`2 c + 2 - 2 d` of them. -/
theorem C53_hcfc (pre : String) (sfx : List Char) (hs : IsomerSuffix sfx) (d c h f : ℕ)
    (hc1 : 1 ≤ c) (hc : c ≤ 10) (hh : h ≤ 8) (hf : f ≤ 9) :
    findNumClInHcfc (pre ++ "-" ++ toString (compoundCode d c h f) ++ String.ofList sfx)
      = .ok (2 * c + 2 - 2 * d - h - f) := by
  have hn : compoundNumber (pre ++ "-" ++ toString (compoundCode d c h f) ++ String.ofList sfx).toList
      = .ok (compoundCode d c h f : ℕ) := by
    simp only [String.toList_append, toList_toString_nat, String.toList_ofList, List.append_assoc]
    unfold compoundNumber
    have hno : '-' ∉ Nat.toDigits 10 (compoundCode d c h f) ++ sfx := by
      rw [List.mem_append, not_or]
      refine ⟨not_mem_toDigits (by decide) _, ?_⟩
      rcases hs with rfl | ⟨x, rfl, _, hx⟩
      · simp
      · simpa using Ne.symm hx
    have hl : lastPart ['-'] (pre.toList ++ ("-".toList ++ (Nat.toDigits 10 (compoundCode d c h f) ++ sfx)))
        = Nat.toDigits 10 (compoundCode d c h f) ++ sfx := by
      unfold lastPart
      have := afterLast_append (pat := ['-']) (b := Nat.toDigits 10 (compoundCode d c h f) ++ sfx)
        (by simp) (by
          intro e
          exact hno (e.subset (by simp))) pre.toList
      rw [show "-".toList = ['-'] from rfl, this]
      rfl
    simp only
    rw [hl]
    rcases hs with rfl | ⟨x, rfl, hx, _⟩
    · rw [List.append_nil]
      have hne := Nat.toDigits_ne_nil (b := 10) (n := compoundCode d c h f)
      rw [List.getLast?_eq_some_getLast hne]
      simp only
      rw [Nat.isDigit_of_mem_toDigits (by decide) (by decide) (List.getLast_mem hne)]
      exact pyInt_toDigits _
    · rw [List.getLast?_concat]
      simp only
      rw [hx, List.dropLast_concat]
      exact pyInt_toDigits _
  unfold findNumClInHcfc
  rw [hn, bind_ok]
  unfold chlorineOfNumber compoundCode
  simp only [pure_ok, Except.ok.injEq]
  omega

/-- `HCFC-141b` is `compoundCode 0 2 3 1` with suffix `b`: two chlorine atoms. -/
example : compoundCode 0 2 3 1 = 141 ∧ findNumClInHcfc "HCFC-141b" = .ok 2 ∧
    findNumClInHcfc "CFC-1113" = .ok 1 := by decide +kernel

/-- A single decimal digit. -/
theorem pyInt_digit (n : ℕ) (hn : n ≤ 9) : pyInt [Nat.digitChar n] = .ok n := by
  have : Nat.toDigits 10 n = [Nat.digitChar n] := Nat.toDigits_of_lt_base (by omega)
  rw [← this]; exact pyInt_toDigits n

/-- C53: a halon `H-abcd` has `c` chlorine atoms (no entry if none) and `d` bromine atoms. -/
theorem C53_halon (a b c d : ℕ) (ha : a ≤ 9) (hb : b ≤ 9) (hc : c ≤ 9) (hd : d ≤ 9) :
    halogens (String.ofList ("H-".toList ++ [a.digitChar, b.digitChar, c.digitChar, d.digitChar]))
      = .ok (if c = 0 then none else some (c : ℤ), some (d : ℤ)) := by
  unfold halogens
  have hno : (afterLast "CFC-".toList ("H-".toList ++ [a.digitChar, b.digitChar, c.digitChar, d.digitChar])).isSome
      = false := by
    rw [Bool.eq_false_iff]
    intro e
    rw [afterLast_isSome (by decide)] at e
    have hC : 'C' ∉ ("H-".toList ++ [a.digitChar, b.digitChar, c.digitChar, d.digitChar]) := by
      have : ∀ n : ℕ, n ≤ 9 → Nat.digitChar n ≠ 'C' := by decide
      have h1 := this a ha
      have h2 := this b hb
      have h3 := this c hc
      have h4 := this d hd
      simp [h1.symm, h2.symm, h3.symm, h4.symm]
    exact hC (e.subset (by decide))
  simp only [String.toList_ofList]
  rw [if_neg (by rw [hno]; decide), if_pos (by simp)]
  have h5 : digitAt ("H-".toList ++ [a.digitChar, b.digitChar, c.digitChar, d.digitChar]) 5
      = .ok (d : ℤ) := by
    unfold digitAt; exact pyInt_digit d hd
  have h4 : digitAt ("H-".toList ++ [a.digitChar, b.digitChar, c.digitChar, d.digitChar]) 4
      = .ok (c : ℤ) := by
    unfold digitAt; exact pyInt_digit c hc
  rw [h5, bind_ok, h4, bind_ok, pure_ok]
  rcases Nat.eq_zero_or_pos c with rfl | h
  · simp
  · rw [if_pos (by omega), if_neg (by omega)]

example : halogens "H-1211" = .ok (some 1, some 1) ∧ halogens "H-2402" = .ok (none, some 2) := by
  decide +kernel

/-- The count written directly after an element symbol: the digit, or one if there is no digit. -/
def WrittenAs (rest : List Char) (n : ℕ) : Prop :=
  (n ≤ 9 ∧ ∃ r, rest = Nat.digitChar n :: r) ∨ (n = 1 ∧ ∀ c r, rest = c :: r → c.isDigit = false)

theorem writtenCount_eq {rest : List Char} {n : ℕ} (h : WrittenAs rest n) :
    writtenCount rest = .ok n := by
  rcases h with ⟨hn, r, rfl⟩ | ⟨rfl, h⟩
  · have : (Nat.digitChar n).isDigit = true :=
      Nat.isDigit_of_mem_toDigits (b := 10) (n := n) (by decide) (by decide)
        (by rw [Nat.toDigits_of_lt_base (by omega)]; simp)
    unfold writtenCount
    simp only
    rw [if_pos this, pyInt_digit n hn]
  · cases rest with
    | nil => rfl
    | cons c r =>
      unfold writtenCount
      simp only
      rw [h c r rfl]
      rfl

/-- A name read as a chemical formula: not one of the numbered compound names. -/
def IsFormula (name : List Char) : Prop := ¬ "CFC-".toList <:+: name ∧ ¬ "H-".toList <+: name

/-- C53 (partial): the chlorine count of a formula is the number written after `Cl`. Missing: formulae
in which `Cl` occurs several times (only the last occurrence is counted). -/
theorem C53_formula_chlorine_partial (a b : List Char) (n : ℕ)
    (hform : IsFormula (a ++ ("Cl".toList ++ b))) (hb : ¬ "Cl".toList <:+: b) (hw : WrittenAs b n) :
    halogens (String.ofList (a ++ ("Cl".toList ++ b))) = .ok (some (n : ℤ), none) := by
  unfold halogens
  simp only [String.toList_ofList]
  rw [if_neg (by rw [afterLast_isSome (by decide)]; exact hform.1),
    if_neg (fun e => hform.2 (List.isPrefixOf_iff_prefix.1 e))]
  rw [afterLast_append (by decide) _ a]
  · simp only
    rw [writtenCount_eq hw, bind_ok, pure_ok]
  · intro e
    rcases List.infix_cons_iff.1 (show "Cl".toList <:+: 'l' :: b from e) with h | h
    · obtain ⟨t, ht⟩ := h
      have := congrArg List.head? ht
      simp at this
    · exact hb h

/-- C53 (partial): likewise for bromine in formulae without chlorine. Missing: formulae containing
both (`C53_mixed_false`). -/
theorem C53_formula_bromine_partial (a b : List Char) (n : ℕ)
    (hform : IsFormula (a ++ ("Br".toList ++ b)))
    (hcl : ¬ "Cl".toList <:+: a ++ ("Br".toList ++ b)) (hb : ¬ "Br".toList <:+: b)
    (hw : WrittenAs b n) :
    halogens (String.ofList (a ++ ("Br".toList ++ b))) = .ok (none, some (n : ℤ)) := by
  unfold halogens
  simp only [String.toList_ofList]
  rw [if_neg (by rw [afterLast_isSome (by decide)]; exact hform.1),
    if_neg (fun e => hform.2 (List.isPrefixOf_iff_prefix.1 e)), afterLast_none hcl]
  rw [afterLast_append (by decide) _ a]
  · simp only
    rw [writtenCount_eq hw, bind_ok, pure_ok]
  · intro e
    rcases List.infix_cons_iff.1 (show "Br".toList <:+: 'r' :: b from e) with h | h
    · obtain ⟨t, ht⟩ := h
      have := congrArg List.head? ht
      simp at this
    · exact hb h

/-- C53: a formula without chlorine and bromine has no entry. -/
theorem C53_no_halogen (name : String) (hform : IsFormula name.toList)
    (hcl : ¬ "Cl".toList <:+: name.toList) (hbr : ¬ "Br".toList <:+: name.toList) :
    halogens name = .ok (none, none) := by
  unfold halogens
  simp only
  rw [if_neg (by rw [afterLast_isSome (by decide)]; exact hform.1),
    if_neg (fun e => hform.2 (List.isPrefixOf_iff_prefix.1 e)), afterLast_none hcl,
    afterLast_none hbr]
  rfl

/-- `CH3CCl3`, `CH3Br` and `CH4` as formulae. -/
example : halogens "CH3CCl3" = .ok (some 3, none) ∧ halogens "CH3Br" = .ok (none, some 1) ∧
    halogens "CH4" = .ok (none, none) := by decide +kernel
example : IsFormula ("CH3C".toList ++ ("Cl".toList ++ "3".toList)) ∧ WrittenAs "3".toList 3 :=
  ⟨by unfold IsFormula; decide +kernel, .inl ⟨by omega, [], rfl⟩⟩

/-- C53 fails for compounds containing both: bromochloromethane's bromine atom is not counted, and a
formula with two `Cl` groups loses the first. -/
theorem C53_mixed_false : halogens "CH2BrCl" = .ok (some 1, none) ∧
    halogens "CH2ClCH2Cl" = .ok (some 1, none) := by decide +kernel

/-- C53: isomers with two suffix letters (HCFC-225ca and HCFC-225cb are real compounds) are
rejected. -/
theorem C53_two_letter_suffix_false : halogens "HCFC-225ca" = .error .valueError := by
  decide +kernel

theorem get?_setOpt {V : Type} (d : Dict V) (k : String) (o : Option V) (k' : String) :
    Dict.get? (setOpt d k o) k' = if k = k' then o.or (Dict.get? d k') else Dict.get? d k' := by
  cases o with
  | none => unfold setOpt; by_cases h : k = k' <;> simp [h]
  | some v => unfold setOpt; rw [Dict.get?_set]; by_cases h : k = k' <;> simp [h]

/-- C53: the dictionaries hold, for every listed tracer and for nothing else, its own counts. -/
theorem C53_dictionaries (index : List String) (cl br : Dict Int)
    (h : makeClAndBr index = .ok (cl, br)) :
    (∀ t ∈ index, halogens t = .ok (Dict.get? cl t, Dict.get? br t)) ∧
    (∀ t, t ∉ index → Dict.get? cl t = none ∧ Dict.get? br t = none) := by
  have key : ∀ (l : List String) (c b : Dict Int), clBrLoop c b l = .ok (cl, br) →
      (∀ t, halogens t = .ok (Dict.get? c t, Dict.get? b t) →
        halogens t = .ok (Dict.get? cl t, Dict.get? br t)) ∧
      (∀ t ∈ l, (Dict.get? c t = none ∧ Dict.get? b t = none ∨
          halogens t = .ok (Dict.get? c t, Dict.get? b t)) →
        halogens t = .ok (Dict.get? cl t, Dict.get? br t)) ∧
      (∀ t, t ∉ l → Dict.get? cl t = Dict.get? c t ∧ Dict.get? br t = Dict.get? b t) := by
    intro l
    induction l with
    | nil =>
      intro c b h
      simp only [clBrLoop, Except.ok.injEq, Prod.mk.injEq] at h
      obtain ⟨rfl, rfl⟩ := h
      exact ⟨fun _ h => h, fun t h _ => absurd h (by simp), fun _ _ => ⟨rfl, rfl⟩⟩
    | cons s l ih =>
      intro c b h
      rw [clBrLoop, bind_eq_ok] at h
      obtain ⟨hs, hh, h⟩ := h
      obtain ⟨i1, i2, i3⟩ := ih _ _ h
      have hself : (Dict.get? c s = none ∧ Dict.get? b s = none ∨
          halogens s = .ok (Dict.get? c s, Dict.get? b s)) →
          halogens s = .ok (Dict.get? (setOpt c s hs.1) s, Dict.get? (setOpt b s hs.2) s) := by
        intro hcb
        rw [get?_setOpt, get?_setOpt, if_pos rfl, if_pos rfl, hh]
        rcases hcb with ⟨e1, e2⟩ | e
        · rw [e1, e2]; simp
        · rw [hh, Except.ok.injEq] at e
          rw [show hs.1 = Dict.get? c s by rw [e], show hs.2 = Dict.get? b s by rw [e]]
          simp [e]
      have hother : ∀ t, s ≠ t → Dict.get? (setOpt c s hs.1) t = Dict.get? c t ∧
          Dict.get? (setOpt b s hs.2) t = Dict.get? b t := by
        intro t ht
        rw [get?_setOpt, get?_setOpt, if_neg ht, if_neg ht]
        exact ⟨rfl, rfl⟩
      refine ⟨fun t ht => ?_, fun t htl ht => ?_, fun t ht => ?_⟩
      · by_cases e : s = t
        · subst e; exact i1 _ (hself (.inr ht))
        · exact i1 t (by rw [(hother t e).1, (hother t e).2]; exact ht)
      · by_cases e : s = t
        · subst e; exact i1 _ (hself ht)
        · have : t ∈ l := by
            rcases List.mem_cons.1 htl with h' | h'
            · exact absurd h'.symm e
            · exact h'
          exact i2 t this (by rw [(hother t e).1, (hother t e).2]; exact ht)
      · rw [List.mem_cons, not_or] at ht
        rw [(i3 t ht.2).1, (i3 t ht.2).2]
        exact hother t (fun e => ht.1 e.symm)
  obtain ⟨-, i2, i3⟩ := key index [] [] h
  exact ⟨fun t ht => i2 t ht (.inl ⟨rfl, rfl⟩), fun t ht => i3 t ht⟩

example : makeClAndBr ["CO2", "CFC-11", "H-1301", "CCl4"]
    = .ok ([("CFC-11", 3), ("CCl4", 4)], [("H-1301", 1)]) := by decide +kernel

end Verif.Props
