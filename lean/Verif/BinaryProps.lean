import Verif.ActivationProps

/-!
# Combined activations hold 0 and 1 only (C06)
-/

namespace Verif.BinaryProps

open Verif Verif.Activation Verif.Codec Verif.ActivationProps

/-- Only 0 and 1 -/
def ZeroOne (v : Arr) : Prop := ∀ x ∈ v, x = 0 ∨ x = 1

theorem truth_binary (v : Arr) : ZeroOne (truth v) := by
  intro x hx
  obtain ⟨a, -, rfl⟩ := List.mem_map.1 hx
  split
  · exact .inr rfl
  · exact .inl rfl

theorem zipWith_binary {f : Nat → Nat → Nat} (hf : ∀ a b, f a b = 0 ∨ f a b = 1) (x y : Arr) : ZeroOne (List.zipWith f x y) := by
  intro z hz
  rw [List.zipWith_eq_zipWith_take_min, List.mem_iff_getElem] at hz
  obtain ⟨i, hi, rfl⟩ := hz
  rw [List.getElem_zipWith]
  exact hf _ _

theorem row_binary (isAnd : Bool) (x y : Arr) : ZeroOne ((if isAnd then andRow else orRow) x y) := by
  cases isAnd with
  | true =>
    refine zipWith_binary (fun a b => ?_) x y
    split
    · exact .inr rfl
    · exact .inl rfl
  | false =>
    refine zipWith_binary (fun a b => ?_) x y
    split
    · exact .inr rfl
    · exact .inl rfl

theorem columns_binary (isAnd : Bool) (rows : List Arr) : ZeroOne (columns isAnd rows) := by
  cases rows with
  | nil => intro x hx; cases hx
  | cons r rest =>
    show ZeroOne (rest.foldl (if isAnd then andRow else orRow) (truth r))
    have : ∀ (rest : List Arr) (v : Arr), ZeroOne v → ZeroOne (rest.foldl (if isAnd then andRow else orRow) v) := by
      intro rest
      induction rest with
      | nil => intro v h; exact h
      | cons s rest ih => intro v _; exact ih _ (row_binary isAnd v s)
    exact this rest _ (truth_binary r)

/-- **C06 (0 and 1).** When memory is not short, the array which `multi_logical_and` or `multi_logical_or` returns holds 0 and 1 only, whatever
numbers the given activations hold: every number but 0 counts as 1. -/
theorem C06_binary {isAnd : Bool} {mem : Mem} {ids : List Nat} {h h' : Heap} {v : Arr} (hr : multiArr isAnd mem ids h = (.ok v, h'))
    (he : 11 * ((mem.before - mem.after) * ids.length * mem.ncpus) ≤ 10 * mem.before) (ho : mem.oom = false) : ∀ x ∈ v, x = 0 ∨ x = 1 := by
  unfold multiArr at hr
  cases ids with
  | nil => cases hr
  | cons i rest =>
    simp only at hr
    obtain ⟨r, h1, -, hr⟩ := Py.bind_eq_ok hr
    split at hr
    · cases hr
    · rw [if_neg (by omega)] at hr
      obtain ⟨rows, h2, -, hr⟩ := Py.bind_eq_ok hr
      rw [if_neg (by simp [ho])] at hr
      obtain ⟨rows', h3, -, hr⟩ := Py.bind_eq_ok hr
      cases hr
      exact columns_binary isAnd rows'

/-- One activation which holds 2, 0 and 1, kept as it was given -/
def twosHeap : Heap := (new (.arr [2, 0, 1]) true none false false ⟨[], { world .str false (fun _ => false) with storeRaw := true }⟩).2

example : (onObj 0 raw twosHeap).1 = .ok [2, 0, 1] ∧ (multiArr false ⟨100, 99, 1, false, false⟩ [0] twosHeap).1 = .ok [1, 0, 1] := by
  decide +kernel

/-- **C06, violation (other numbers).** When memory is short, one activation which holds another number than 0 and 1 is returned as it is: the
array depends on the free memory. -/
theorem C06_other_numbers_false : ∃ (h : Heap) (m m' : Mem), (multiArr false m [0] h).1 = .ok [1, 0, 1] ∧
    (multiArr false m' [0] h).1 = .ok [2, 0, 1] :=
  ⟨twosHeap, ⟨100, 99, 1, false, false⟩, ⟨100, 99, 1, true, false⟩, by decide +kernel, by decide +kernel⟩

end Verif.BinaryProps
