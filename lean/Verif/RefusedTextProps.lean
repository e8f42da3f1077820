import Verif.SaveProps
import Verif.ActivationProps

/-!
# C29, C03: what is refused
-/

namespace Verif.SaveProps

open Verif Save

/-- A list as Python writes it (or `None`), and then something which starts with a letter -/
def Spoilt {α : Type} (f : α → List Char) (t : String) : Prop :=
  ∃ (o : Option (List α)) (c : Char) (rest : List Char), c.isAlpha ∧ t = String.ofList (PyText.option f o ++ c :: rest)

theorem literalList_spoilt {α : Type} {f : α → List Char} {read : List Char → Option (α × List Char)} (hf : PyText.Reads f read) {t : String}
    (h : Spoilt f t) : ∃ e, literalList read t = .error e := by
  obtain ⟨o, c, rest, -, rfl⟩ := h
  unfold literalList
  rw [String.toList_ofList, PyText.readOption_option hf]
  exact ⟨_, rfl⟩

/-- **C29 (spoilt cells).** A line of a saved file with something after one of its four lists is not read as if the list stood alone: loading it raises. -/
theorem C29_spoilt (W : Texts) (by_ : String) (k : Kind) (l : Line)
    (h : Spoilt (PyText.text W.printable) l.names ∨ Spoilt PyText.int l.indexes ∨ Spoilt (PyText.num W.floats) l.bmins ∨
      Spoilt (PyText.num W.floats) l.bmaxs) : ∃ e, lineToRule W by_ k l = .error e := by
  unfold lineToRule
  simp only [bind, Except.bind]
  cases h1 : literalList PyText.readText l.names with
  | error e => exact ⟨_, rfl⟩
  | ok names =>
    cases h2 : literalList PyText.readInt l.indexes with
    | error e => exact ⟨_, rfl⟩
    | ok indexes =>
      cases h3 : literalBounds W l.bmins with
      | error e => exact ⟨_, rfl⟩
      | ok bmins =>
        cases h4 : literalBounds W l.bmaxs with
        | error e => exact ⟨_, rfl⟩
        | ok bmaxs =>
          exfalso
          have hb : ∀ t v, literalBounds W t = .ok v → ¬ Spoilt (PyText.num W.floats) t := by
            intro t v hv hs
            obtain ⟨e, he⟩ := literalList_spoilt (PyText.reads_num W.floats) hs
            unfold literalBounds at hv
            rw [he] at hv
            cases hv
          rcases h with h | h | h | h
          · obtain ⟨e, he⟩ := literalList_spoilt (PyText.reads_text W.printable) h
            rw [h1] at he
            cases he
          · obtain ⟨e, he⟩ := literalList_spoilt PyText.reads_int h
            rw [h2] at he
            cases he
          · exact hb _ _ h3 h
          · exact hb _ _ h4 h

example : Spoilt PyText.int "[0, 12]x" := ⟨some [0, 12], 'x', [], by decide, by decide +kernel⟩

end Verif.SaveProps

namespace Verif.ActivationProps

open Verif Activation Codec

/-- **C03, violation (no point, bitarrays).** The empty bitarray is no activation when activations are kept as integers: `int("", 2)` raises `ValueError`. -/
theorem C03_empty_bits_false (d : DType) (s : Nat → Bool) :
    (step (.new [] (.bits []) true none false) ⟨[], world d true s⟩).1 = .error .valueError := by
  cases d <;> rfl

end Verif.ActivationProps
