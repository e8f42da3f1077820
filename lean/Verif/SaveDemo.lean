import Verif.SaveLemmas
import Verif.RuleSetDemo

/-!
# Example data for saving and loading
-/

namespace Verif.SaveProps

open Verif Save PyText

/-! ## Numbers written as fractions -/

/-- `n/d` -/
def writeFraction (x : Rat) : List Char := PyText.int x.num ++ '/' :: PyText.nat x.den

/-- Reading a fraction -/
def readFraction (l : List Char) : Option (Rat × List Char) :=
  match readInt l with
  | none => none
  | some (n, rest) =>
    match after ['/'] rest with
    | none => none
    | some rest => (readNat rest).map fun p => ((n : Rat) / (p.1 : Rat), p.2)

theorem int_head (i : Int) : ∃ c t, (digitValue c).isSome = true ∧ (PyText.int i = c :: t ∨ PyText.int i = '-' :: c :: t) := by
  obtain ⟨c, t, e, hc⟩ := nat_head i.natAbs
  refine ⟨c, t, hc, ?_⟩
  unfold PyText.int
  split
  · right; rw [e]
  · left; rw [e]

theorem readFraction_write (x : Rat) (rest : List Char)
    (h : rest = [] ∨ (∃ t, rest = ',' :: t) ∨ (∃ t, rest = ']' :: t)) : readFraction (writeFraction x ++ rest) = some (x, rest) := by
  have hnd : NotDigit rest := by
    rcases h with rfl | ⟨t, rfl⟩ | ⟨t, rfl⟩
    · intro c t e; cases e
    · intro c t e; cases e; decide
    · intro c t e; cases e; decide
  unfold readFraction writeFraction
  rw [List.append_assoc, readInt_int _ (by intro c t e; cases e; decide)]
  simp only [List.cons_append, after, if_true]
  rw [readNat_nat _ hnd]
  simp only [Option.map_some, Option.some.injEq, Prod.mk.injEq, and_true]
  exact Rat.num_div_den x

theorem writeFraction_head (x : Rat) :
    ∃ c t, (digitValue c).isSome = true ∧ (writeFraction x = c :: t ∨ writeFraction x = '-' :: c :: t) := by
  obtain ⟨c, t, hc, h⟩ := int_head x.num
  refine ⟨c, t ++ '/' :: PyText.nat x.den, hc, ?_⟩
  unfold writeFraction
  rcases h with h | h
  · left; rw [h]; rfl
  · right; rw [h]; rfl

/-- Floats written as fractions -/
def fractions : Floats where
  write := writeFraction
  read := readFraction
  read_write := readFraction_write
  write_head := writeFraction_head

/-- The number in a cell: a fraction or an integer -/
def cellNumber (t : String) : Option Num :=
  match readFraction t.toList with
  | some (x, []) => some (.fin x)
  | _ =>
    match readInt t.toList with
    | some (i, []) => some (.fin i)
    | _ => none

/-- Texts which begin with a digit or with `-` and a digit -/
def NumberLike (l : List Char) : Prop := ∃ c t, (digitValue c).isSome = true ∧ (l = c :: t ∨ l = '-' :: c :: t)

theorem not_missing {l : List Char} (h : NumberLike l) : String.ofList l ∉ ["", "nan", "NA", "null"] := by
  obtain ⟨c, t, hc, h⟩ := h
  have aux : ∀ (d : Char) (u : List Char), digitValue d = none → d ≠ '-' → String.ofList l ≠ String.ofList (d :: u) := by
    intro d u hd hm e
    have e := congrArg String.toList e
    simp only [String.toList_ofList] at e
    rcases h with h | h <;> rw [h] at e <;> cases e
    · exact digit_ne hc hd rfl
    · exact hm rfl
  have h0 : String.ofList l ≠ String.ofList [] := by
    intro e
    have e := congrArg String.toList e
    simp only [String.toList_ofList] at e
    rcases h with h | h <;> rw [h] at e <;> cases e
  intro hm
  simp only [List.mem_cons, List.not_mem_nil, or_false] at hm
  rcases hm with e | e | e | e
  · exact h0 e
  · exact aux 'n' ['a', 'n'] (by decide) (by decide) e
  · exact aux 'N' ['A'] (by decide) (by decide) e
  · exact aux 'n' ['u', 'l', 'l'] (by decide) (by decide) e

theorem list_not_number (t : List Char) : cellNumber (String.ofList ('[' :: t)) = none := by
  unfold cellNumber readFraction
  rw [String.toList_ofList]
  have : readInt ('[' :: t) = none := rfl
  rw [this]

/-- Letters, digits and other printable signs of ASCII; `read_csv` takes the empty text, `nan`, `NA` and `null` for missing values;
`literal_eval` refuses two words with `SyntaxError` and one word with `ValueError`. -/
def someTexts : Texts where
  printable := fun c => decide (32 ≤ c.toNat ∧ c.toNat < 127)
  floats := fractions
  literal := fun t =>
    match readInt t.toList with
    | some (i, []) => .ok (some (.num (.fin i)))
    | _ => if ' ' ∈ t.toList then .error .syntaxError else .error .valueError
  literal_inf := by decide
  literal_ninf := by decide
  missing := ["", "nan", "NA", "null"]
  missing_empty := by decide
  missing_nan := by decide
  missing_int := fun i => not_missing (int_head i)
  missing_list := fun t hm => by
    simp only [List.mem_cons, List.not_mem_nil, or_false] at hm
    rcases hm with e | e | e | e <;>
    · have e := congrArg String.toList e
      rw [String.toList_ofList] at e
      cases e
  missing_num := fun x => not_missing (writeFraction_head x)
  csvNumber := cellNumber
  csvRound := id
  csvNumber_num := fun x => by
    unfold cellNumber
    rw [String.toList_ofList]
    have := readFraction_write x [] (Or.inl rfl)
    rw [List.append_nil] at this
    have e : fractions.write x = writeFraction x := rfl
    rw [e, this]
    rfl
  csvNumber_list := list_not_number
  csvNumber_none := by decide

end Verif.SaveProps
