import Verif.Model.Reader

/-!
# String functions of the reader, on lists of character codes

The kernel evaluates functions on strings slowly and functions on lists of numbers quickly. The lemmas of this file move
the string functions of `Verif.Model.Reader` to the lists of character codes.
-/

namespace Verif.Lemmas.ReaderCodes
open Verif.Py Verif.Model.Reader

/-- The character codes of a string. -/
def code (s : String) : List Nat := s.toList.map Char.toNat

theorem toNat_inj {a b : Char} (h : a.toNat = b.toNat) : a = b :=
  Char.ext (UInt32.toNat_inj.mp h)

theorem map_toNat_inj : ∀ {a b : List Char}, a.map Char.toNat = b.map Char.toNat → a = b := by
  intro a
  induction a with
  | nil => intro b h; cases b with
    | nil => rfl
    | cons c b => cases h
  | cons x a ih =>
    intro b h
    cases b with
    | nil => cases h
    | cons y b =>
      rw [List.map_cons, List.map_cons, List.cons.injEq] at h
      rw [toNat_inj h.1, ih h.2]

theorem code_inj {a b : String} (h : code a = code b) : a = b := String.toList_inj.mp (map_toNat_inj h)

theorem code_ofList (l : List Char) : code (String.ofList l) = l.map Char.toNat := by
  unfold code
  rw [String.toList_ofList]

theorem code_append (a b : String) : code (a ++ b) = code a ++ code b := by
  unfold code
  rw [String.toList_append, List.map_append]

/-- Equality of lists of numbers. -/
def eqN : List Nat → List Nat → Bool
  | [], [] => true
  | a :: as, b :: bs => cond (Nat.beq a b) (eqN as bs) false
  | _, _ => false

theorem eqN_iff : ∀ {a b : List Nat}, eqN a b = true ↔ a = b := by
  intro a
  induction a with
  | nil => intro b; cases b <;> simp [eqN]
  | cons x a ih =>
    intro b
    cases b with
    | nil => simp [eqN]
    | cons y b =>
      unfold eqN
      cases h : Nat.beq x y with
      | false =>
        have : x ≠ y := by rintro rfl; rw [Nat.beq_refl] at h; cases h
        simp [this]
      | true =>
        have := Nat.eq_of_beq_eq_true h
        subst this
        simp [ih]

theorem eqN_code (a b : String) : eqN (code a) (code b) = decide (a = b) := by
  rw [Bool.eq_iff_iff, eqN_iff, decide_eq_true_eq]
  exact ⟨code_inj, fun h => by rw [h]⟩

/-- Prefix of lists of numbers. -/
def prefN : List Nat → List Nat → Bool
  | [], _ => true
  | a :: as, b :: bs => cond (Nat.beq a b) (prefN as bs) false
  | _ :: _, [] => false

theorem prefN_map : ∀ (a b : List Char), prefN (a.map Char.toNat) (b.map Char.toNat) = a.isPrefixOf b := by
  intro a
  induction a with
  | nil => intro b; cases b <;> rfl
  | cons x a ih =>
    intro b
    cases b with
    | nil => rfl
    | cons y b =>
      simp only [List.map_cons, prefN, List.isPrefixOf_cons₂, ih]
      cases h : Nat.beq x.toNat y.toNat with
      | false =>
        have : x ≠ y := by rintro rfl; rw [Nat.beq_refl] at h; cases h
        simp [this]
      | true =>
        have := toNat_inj (Nat.eq_of_beq_eq_true h)
        subst this
        simp

/-- Sublist of lists of numbers. -/
def subN (pat : List Nat) : List Nat → Bool
  | [] => pat.isEmpty
  | c :: cs => cond (prefN pat (c :: cs)) true (subN pat cs)

theorem inStr_code (a b : String) : inStr a b = subN (code a) (code b) := by
  unfold inStr code
  generalize a.toList = p
  generalize b.toList = s
  induction s with
  | nil => cases p <;> rfl
  | cons c cs ih =>
    rw [List.map_cons]
    unfold isSub subN
    rw [← List.map_cons, prefN_map, ih]
    cases p.isPrefixOf (c :: cs) <;> rfl

theorem startsWith_code (s p : String) : startsWith s p = prefN (code p) (code s) := by
  unfold startsWith code
  rw [prefN_map]

theorem endsWith_code (s p : String) : endsWith s p = prefN (code p).reverse (code s).reverse := by
  unfold endsWith code
  rw [← List.map_reverse, ← List.map_reverse, prefN_map]
  rfl

/-- Replacement in lists of numbers. -/
def replaceN (pat rep : List Nat) : Nat → List Nat → List Nat
  | _, [] => []
  | k + 1, _ :: cs => replaceN pat rep k cs
  | 0, c :: cs => cond (prefN pat (c :: cs)) (rep ++ replaceN pat rep (pat.length - 1) cs) (c :: replaceN pat rep 0 cs)

theorem replace_code (s p r : String) : code (replace s p r) = replaceN (code p) (code r) 0 (code s) := by
  unfold replace
  rw [code_ofList]
  unfold code
  generalize p.toList = p
  generalize r.toList = r
  generalize s.toList = s
  generalize 0 = k
  induction s generalizing k with
  | nil => cases k <;> rfl
  | cons c cs ih =>
    cases k with
    | succ k =>
      rw [List.map_cons]
      unfold replaceGo replaceN
      exact ih k
    | zero =>
      rw [List.map_cons]
      unfold replaceGo replaceN
      rw [← List.map_cons, prefN_map]
      cases p.isPrefixOf (c :: cs) with
      | true =>
        simp only [if_true, List.map_append, ih, List.length_map, cond_true]
      | false =>
        simp only [Bool.false_eq_true, if_false, List.map_cons, ih, cond_false]

/-! ## Dictionaries -/

/-- The codes of a dictionary of strings. -/
def encD (d : Dict String) : List (List Nat × List Nat) := d.map (fun kv => (code kv.1, code kv.2))

theorem encD_inj : ∀ {d e : Dict String}, encD d = encD e → d = e := by
  intro d
  induction d with
  | nil => intro e h; cases e with
    | nil => rfl
    | cons c b => cases h
  | cons x d ih =>
    intro e h
    cases e with
    | nil => cases h
    | cons y e =>
      unfold encD at h
      rw [List.map_cons, List.map_cons, List.cons.injEq, Prod.mk.injEq] at h
      rw [ih h.2, Prod.ext (code_inj h.1.1) (code_inj h.1.2)]

/-- `d[k] = v`. -/
def setN : List (List Nat × List Nat) → List Nat → List Nat → List (List Nat × List Nat)
  | [], k, v => [(k, v)]
  | kv :: d, k, v => cond (eqN kv.1 k) ((kv.1, v) :: d) (kv :: setN d k v)

theorem set_code (d : Dict String) (k v : String) : encD (d.set k v) = setN (encD d) (code k) (code v) := by
  unfold encD
  induction d with
  | nil => rfl
  | cons kv d ih =>
    rw [List.map_cons]
    unfold Dict.set setN
    rw [eqN_code]
    by_cases h : kv.1 = k
    · rw [if_pos h, decide_eq_true h]; rfl
    · rw [if_neg h, decide_eq_false h, List.map_cons, ih]; rfl

/-- `d[k]`. -/
def getN : List (List Nat × List Nat) → List Nat → Option (List Nat)
  | [], _ => none
  | kv :: d, k => cond (eqN kv.1 k) (some kv.2) (getN d k)

theorem get_code (d : Dict String) (k : String) : (d.get? k).map code = getN (encD d) (code k) := by
  unfold encD
  induction d with
  | nil => rfl
  | cons kv d ih =>
    rw [List.map_cons]
    unfold Dict.get? getN
    rw [eqN_code]
    by_cases h : kv.1 = k
    · rw [if_pos h, decide_eq_true h]; rfl
    · rw [if_neg h, decide_eq_false h, ih]; rfl

theorem get_of_code {d : Dict String} {k v : String} (h : getN (encD d) (code k) = some (code v)) :
    d.get? k = some v := by
  rw [← get_code] at h
  cases hg : d.get? k with
  | none => rw [hg] at h; cases h
  | some w =>
    rw [hg, Option.map_some, Option.some.injEq] at h
    rw [code_inj h]

theorem mem_code (s : String) (l : List String) : decide (s ∈ l) = (l.map code).any (eqN (code s)) := by
  rw [Bool.eq_iff_iff, decide_eq_true_eq, List.any_eq_true]
  constructor
  · intro h
    exact ⟨code s, List.mem_map_of_mem h, eqN_iff.mpr rfl⟩
  · rintro ⟨x, h1, h2⟩
    obtain ⟨t, ht, rfl⟩ := List.mem_map.mp h1
    rwa [code_inj (eqN_iff.mp h2)]

end Verif.Lemmas.ReaderCodes
