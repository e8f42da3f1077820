import Verif.ConditionItemsLemmas
import Verif.ConditionProps

/-!
# Properties: a condition read as the sequence of its features (C87)
-/

namespace Verif.ConditionItemsProps

open Verif Spec Cond ConditionProps

/-- **C87 (from the beginning).** `c[k]` is the name, the index and the two bounds of the feature at place `k`. -/
theorem C87_item {c : Cond} {fs : List Feature} (hs : Shows c fs) {k : Nat} {f : Feature} (hf : fs[k]? = some f) :
    getitem c k = .ok (tupleOf f) := by
  obtain ⟨h1, h2, h3, h4⟩ := hs
  unfold getitem
  rw [h1, h2, h3, h4]
  simp only [need, bind, Except.bind]
  rw [pyItem_at (x := f.name) (by rw [List.getElem?_map, hf]; rfl), pyItem_at (x := f.index) (by rw [List.getElem?_map, hf]; rfl),
    pyItem_at (x := f.lo) (by rw [List.getElem?_map, hf]; rfl), pyItem_at (x := f.hi) (by rw [List.getElem?_map, hf]; rfl)]
  rfl

/-- **C87 (from the end).** `c[-1]` is the last feature, `c[-2]` the one before. -/
theorem C87_last {c : Cond} {fs : List Feature} (hs : Shows c fs) {k : Nat} (hk : k < fs.length) {f : Feature}
    (hf : fs.reverse[k]? = some f) : getitem c (-(k : Int) - 1) = .ok (tupleOf f) := by
  rw [List.getElem?_reverse hk] at hf
  obtain ⟨h1, h2, h3, h4⟩ := hs
  unfold getitem
  rw [h1, h2, h3, h4]
  simp only [need, bind, Except.bind]
  rw [pyItem_end (x := f.name) (by simpa using hk) (by rw [List.length_map, List.getElem?_map, hf]; rfl),
    pyItem_end (x := f.index) (by simpa using hk) (by rw [List.length_map, List.getElem?_map, hf]; rfl),
    pyItem_end (x := f.lo) (by simpa using hk) (by rw [List.length_map, List.getElem?_map, hf]; rfl),
    pyItem_end (x := f.hi) (by simpa using hk) (by rw [List.length_map, List.getElem?_map, hf]; rfl)]
  rfl

/-- **C87 (outside).** Other places raise `IndexError`. -/
theorem C87_outside {c : Cond} {fs : List Feature} (hs : Shows c fs) {i : Int} (h : i < -(fs.length : Int) ∨ (fs.length : Int) ≤ i) :
    getitem c i = .error .indexError := by
  unfold getitem
  rw [hs.1]
  simp only [need, bind, Except.bind]
  rw [pyItem_out (by simpa using h)]

/-- **C87 (iteration).** `for feature in c` goes through the features in their order and ends. -/
theorem C87_iterate {c : Cond} {fs : List Feature} (hs : Shows c fs) {n : Nat} (hn : fs.length < n) :
    iterate c n 0 = .ok (fs.map tupleOf) := by
  have key : ∀ (n k : Nat), k ≤ fs.length → fs.length - k < n → iterate c n k = .ok ((fs.drop k).map tupleOf) := by
    intro n
    induction n with
    | zero => intro k _ h; omega
    | succ n ih =>
      intro k hk h
      unfold iterate
      by_cases e : k = fs.length
      · subst e
        rw [C87_outside hs (.inr (by omega))]
        simp
      · have hlt : k < fs.length := by omega
        rw [C87_item hs (List.getElem?_eq_getElem hlt)]
        simp only
        have := ih (k + 1) (by omega) (by omega)
        rw [show ((k : Int) + 1) = ((k + 1 : Nat) : Int) by push_cast; rfl, this, List.drop_eq_getElem_cons hlt]
        rfl
  have := key n 0 (by omega) (by omega)
  simpa using this

/-- **C87 (length).** `len(c)` is the number of features. -/
theorem C87_len {c : Cond} {fs : List Feature} (hs : Shows c fs) : c.length = fs.length := by
  unfold Cond.length
  rw [hs.1]
  simp

/-- The condition `a in [-1, inf], b in [1, 3]` -/
example : Shows two [⟨"a", 0, .fin (-1), .inf⟩, ⟨"b", 2, .fin 1, .fin 3⟩] ∧
    getitem two 1 = .ok ("b", 2, .fin 1, .fin 3) ∧ getitem two (-2) = .ok ("a", 0, .fin (-1), .inf) ∧
    getitem two 2 = .error .indexError ∧ two.length = 2 ∧
    iterate two 9 0 = .ok [("a", 0, .fin (-1), .inf), ("b", 2, .fin 1, .fin 3)] := by
  have h : Shows two [⟨"a", 0, .fin (-1), .inf⟩, ⟨"b", 2, .fin 1, .fin 3⟩] := ⟨rfl, rfl, rfl, rfl⟩
  exact ⟨h, C87_item h (k := 1) rfl, C87_last h (k := 1) (by decide) rfl, C87_outside h (by decide), C87_len h, C87_iterate h (by decide)⟩

/-- **C87 is false of empty conditions.** A condition made with `empty=True` has length 0 but is not an empty sequence: going through it
raises `TypeError`. -/
theorem C87_empty_false : ∃ c : Cond, Cond.init "index" none none none none true true = .ok c ∧ c.length = 0 ∧
    ∀ n, iterate c (n + 1) 0 = .error .typeError :=
  ⟨{ indexes := none, bmins := none, bmaxs := none, names := none, impossible := false }, rfl, rfl, fun _ => rfl⟩

end Verif.ConditionItemsProps
