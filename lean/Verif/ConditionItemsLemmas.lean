import Verif.ConditionItems

/-!
# Lemmas on items of lists
-/

namespace Verif.Cond

open Verif

theorem pyItem_at {α : Type} {l : List α} {k : Nat} {x : α} (h : l[k]? = some x) : pyItem l k = .ok x := by
  have hk : k < l.length := by
    by_contra hc
    rw [List.getElem?_eq_none (by omega)] at h
    cases h
  unfold pyItem wrap
  rw [if_pos (by omega), if_pos (by omega)]
  simp only [Int.toNat_natCast]
  unfold item
  rw [h]

theorem pyItem_end {α : Type} {l : List α} {k : Nat} {x : α} (hk : k < l.length) (h : l[l.length - 1 - k]? = some x) : pyItem l (-(k : Int) - 1) = .ok x := by
  unfold pyItem wrap
  rw [if_neg (by omega), if_pos (by omega)]
  have e : (-(k : Int) - 1 + l.length).toNat = l.length - 1 - k := by omega
  simp only [e]
  unfold item
  rw [h]

theorem pyItem_out {α : Type} {l : List α} {i : Int} (h : i < -(l.length : Int) ∨ (l.length : Int) ≤ i) : pyItem l i = .error .indexError := by
  have e : wrap l.length i = none := by
    unfold wrap
    by_cases h0 : 0 ≤ i
    · rw [if_pos h0, if_neg (by omega)]
    · rw [if_neg h0, if_neg (by omega)]
  unfold pyItem
  rw [e]

end Verif.Cond
