import Verif.ConditionBox
import Verif.TreeLemmas

/-!
# Lemmas: names and indexes which are not given
-/

namespace Verif.Cond

open Verif Spec

theorem defaultName_text (i : Int) : defaultName i = "X_" ++ toString i := by
  cases i with
  | ofNat n => exact Tree.defaultName_repr n
  | negSucc n =>
    show String.ofList ('X' :: '_' :: '-' :: Codec.digits (n + 1)) = _
    rw [Tree.digits_toDigits]
    show _ = "X_" ++ ("-" ++ Nat.repr (n + 1))
    unfold Nat.repr
    rw [← String.toList_inj]
    simp

theorem defaultName_injective : Function.Injective defaultName := by
  intro i j h
  cases i with
  | ofNat a =>
    cases j with
    | ofNat b => exact congrArg Int.ofNat (Tree.defaultName_inj h)
    | negSucc b =>
      exfalso
      have h : String.ofList ('X' :: '_' :: Codec.digits a) = String.ofList ('X' :: '_' :: '-' :: Codec.digits (b + 1)) := h
      rw [String.ofList_inj] at h
      simp only [List.cons.injEq, true_and] at h
      have := Codec.digits_isDigit a '-' (by rw [h]; simp)
      exact absurd this (by decide)
  | negSucc a =>
    cases j with
    | ofNat b =>
      exfalso
      have h : String.ofList ('X' :: '_' :: '-' :: Codec.digits (a + 1)) = String.ofList ('X' :: '_' :: Codec.digits b) := h
      rw [String.ofList_inj] at h
      simp only [List.cons.injEq, true_and] at h
      have := Codec.digits_isDigit b '-' (by rw [← h]; simp)
      exact absurd this (by decide)
    | negSucc b =>
      have h : String.ofList ('X' :: '_' :: '-' :: Codec.digits (a + 1)) = String.ofList ('X' :: '_' :: '-' :: Codec.digits (b + 1)) := h
      rw [String.ofList_inj] at h
      simp only [List.cons.injEq, true_and] at h
      have e : a + 1 = b + 1 := by rw [← Codec.digits_foldl (a + 1), h, Codec.digits_foldl]
      rw [Nat.succ_injective e]

/-- The constructor given the lists of features. -/
theorem init_features (by_ : String) (fs : List Feature) (s : Bool) :
    init by_ (some (fs.map fun f => V.int f.index)) (some (fs.map fun f => V.float f.lo)) (some (fs.map fun f => V.float f.hi))
      (some (fs.map fun f => V.str f.name)) false s = initFeat by_ fs s := by
  rcases init_named (by_ := by_) (s := s) (idx := fs.map fun f => V.int f.index) (lo := fs.map fun f => V.float f.lo)
    (hi := fs.map fun f => V.float f.hi) (na := fs.map fun f => V.str f.name) (by simp) (by simp) (by simp) with
    ⟨gs, h1, h2, h3, h4, e⟩ | ⟨h, _⟩
  · rw [e]
    have : gs = fs := by
      clear e
      induction fs generalizing gs with
      | nil => cases gs with
        | nil => rfl
        | cons g t => simp at h1
      | cons f t ih => cases gs with
        | nil => simp at h1
        | cons g u =>
          simp only [List.map_cons, List.cons.injEq, V.str?, V.int?, V.num?, Option.some.injEq] at h1 h2 h3 h4
          rw [ih u h1.2 h2.2 h3.2 h4.2]
          congr 1
          obtain ⟨a, b, c, d⟩ := g
          obtain ⟨a', b', c', d'⟩ := f
          simp only at h1 h2 h3 h4
          rw [h1.1, h2.1, h3.1, h4.1]
    rw [this]
  · simp [V.str?, V.int?, V.num?] at h

theorem cell_named {columns : List String} (hc : columns.Nodup) {row : List Num} {i : Int} {n : String} (h0 : 0 ≤ i)
    (h : columns[i.toNat]? = some n) : cell columns.length row i = cellNamed columns row n := by
  unfold cell cellNamed
  rw [if_pos h0]
  obtain ⟨hlt, e⟩ := List.getElem?_eq_some_iff.1 h
  rw [← e, hc.idxOf_getElem]

end Verif.Cond
