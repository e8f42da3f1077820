import Verif.RuleSetDemo
import Verif.OrderLemmas

/-!
# Example environments in which texts are modelled

`tellRs` has texts of lists whose end can be told; `pythonRs` writes lists as Python does, for names without quotes.
-/

namespace Verif.RuleSetProps

open Verif Vote Spec

/-- The end can be told, for lists of characters -/
def Ends {α : Type} (f : α → List Char) : Prop := ∀ a b x y, f a ++ x = f b ++ y → a = b ∧ x = y

/-- A mark before each element, another one at the end -/
def encList {α : Type} (f : α → List Char) : List α → List Char
  | [] => [']']
  | a :: l => ',' :: (f a ++ encList f l)

theorem encList_ends {α : Type} {f : α → List Char} (hf : Ends f) : Ends (encList f) := by
  intro a
  induction a with
  | nil =>
    intro b x y h
    cases b with
    | nil => exact ⟨rfl, by simpa [encList] using h⟩
    | cons b l => simp [encList] at h
  | cons a l ih =>
    intro b x y h
    cases b with
    | nil => simp [encList] at h
    | cons b l' =>
      simp only [encList, List.cons_append, List.append_assoc, List.cons.injEq, true_and] at h
      obtain ⟨rfl, h1⟩ := hf _ _ _ _ h
      obtain ⟨rfl, h2⟩ := ih _ _ _ h1
      exact ⟨rfl, h2⟩

/-- `None` or something -/
def encOption {α : Type} (f : α → List Char) : Option α → List Char
  | none => ['N']
  | some a => '[' :: f a

theorem encOption_ends {α : Type} {f : α → List Char} (hf : Ends f) : Ends (encOption f) := by
  intro a b x y h
  cases a with
  | none =>
    cases b with
    | none => exact ⟨rfl, by simpa [encOption] using h⟩
    | some b => simp [encOption] at h
  | some a =>
    cases b with
    | none => simp [encOption] at h
    | some b =>
      simp only [encOption, List.cons_append, List.cons.injEq, true_and] at h
      obtain ⟨rfl, h1⟩ := hf _ _ _ _ h
      exact ⟨rfl, h1⟩

/-- One character -/
def encChar (c : Char) : List Char := [c]

theorem encChar_ends : Ends encChar := by
  intro a b x y h
  simpa [encChar] using h

/-- A text -/
def encText (s : String) : List Char := encList encChar s.toList

theorem encText_ends : Ends encText := by
  intro a b x y h
  obtain ⟨e, h⟩ := encList_ends encChar_ends _ _ _ _ h
  exact ⟨String.toList_inj.1 e, h⟩

/-- A natural number -/
def encNat (n : Nat) : List Char := encList encChar (List.replicate n 'i')

theorem encNat_ends : Ends encNat := by
  intro a b x y h
  obtain ⟨e, h⟩ := encList_ends encChar_ends _ _ _ _ h
  have := congrArg List.length e
  simp only [List.length_replicate] at this
  exact ⟨this, h⟩

/-- An integer -/
def encInt : Int → List Char
  | .ofNat n => '+' :: encNat n
  | .negSucc n => '-' :: encNat n

theorem encInt_ends : Ends encInt := by
  intro a b x y h
  cases a <;> cases b <;> simp only [encInt, List.cons_append, List.cons.injEq, true_and] at h
  · obtain ⟨rfl, h1⟩ := encNat_ends _ _ _ _ h
    exact ⟨rfl, h1⟩
  · exact absurd h.1 (by decide)
  · exact absurd h.1 (by decide)
  · obtain ⟨rfl, h1⟩ := encNat_ends _ _ _ _ h
    exact ⟨rfl, h1⟩

/-- A number -/
def encNum : Num → List Char
  | .nan => ['n']
  | .inf => ['i']
  | .ninf => ['m']
  | .fin q => 'q' :: (encInt q.num ++ encNat q.den)

theorem encNum_ends : Ends encNum := by
  intro a b x y h
  cases a <;> cases b <;> simp [encNum] at h
  case fin.fin p q =>
    obtain ⟨e1, h1⟩ := encInt_ends _ _ _ _ h
    obtain ⟨e2, h2⟩ := encNat_ends _ _ _ _ h1
    exact ⟨by rw [Rat.ext e1 e2], h2⟩
  all_goals exact ⟨rfl, h⟩

theorem Ends.text {α : Type} {f : α → List Char} (hf : Ends f) : SelfDelimiting fun a => String.ofList (f a) := by
  intro a b x y h
  have h := congrArg String.toList h
  simp only [String.toList_append, String.toList_ofList] at h
  obtain ⟨e, h⟩ := hf _ _ _ _ h
  exact ⟨e, String.toList_inj.1 h⟩

/-- `someRs` with texts of lists whose end can be told -/
def tellRs : RsEnv :=
  { someRs with
    strNames := fun o => String.ofList (encOption (encList encText) o)
    strIndexes := fun o => String.ofList (encOption (encList encInt) o)
    strBounds := fun o => String.ofList (encOption (encList encNum) o) }

theorem tellRs_texts : TextsTellApart tellRs :=
  ⟨(encOption_ends (encList_ends encText_ends)).text, (encOption_ends (encList_ends encInt_ends)).text,
    (encOption_ends (encList_ends encNum_ends)).text⟩

/-- `someRs` with `str(['a', 'b'])` for names without quotes, backslashes and special characters, and `str([1, 2])` -/
def pythonRs : RsEnv :=
  { someRs with
    strNames := fun o => match o with
      | none => "None"
      | some l => "[" ++ String.intercalate ", " (l.map fun s => "'" ++ s ++ "'") ++ "]"
    strIndexes := fun o => match o with
      | none => "None"
      | some l => "[" ++ String.intercalate ", " (l.map fun i => toString i) ++ "]" }

end Verif.RuleSetProps
