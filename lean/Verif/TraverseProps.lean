import Verif.TraverseSpec
import Verif.Save

/-!
# Properties of `traverse` (C77)
-/

namespace Verif.TraverseProps

open Verif Spec Traverse

variable {α : Type}

theorem isTree_iff (types : List TreeType) (o : Obj α) : isTree types o = true ↔ OfTypes types o := by
  cases o <;> simp [isTree, OfTypes]

theorem traverse_of {types : List TreeType} {o : Obj α} (h : OfTypes types o) : traverse types o = traverseAll types (items o) := by
  have h' := (isTree_iff types o).2 h
  match o with
  | .other _ => exact h.elim
  | .list l => rw [traverse, if_pos h']; rfl
  | .tuple l => rw [traverse, if_pos h']; rfl
  | .ruleset none => rw [traverse, if_pos h']; rfl
  | .ruleset (some l) => rw [traverse, if_pos h']; rfl

theorem traverse_not {types : List TreeType} {o : Obj α} (h : ¬ OfTypes types o) : traverse types o = [o] := by
  have h' : ¬ isTree types o = true := fun e => h ((isTree_iff types o).1 e)
  match o with
  | .other _ => rw [traverse]
  | .list l => rw [traverse, if_neg h']
  | .tuple l => rw [traverse, if_neg h']
  | .ruleset none => rw [traverse, if_neg h']
  | .ruleset (some l) => rw [traverse, if_neg h']

theorem traverseAll_eq (types : List TreeType) (l : List (Obj α)) : traverseAll types l = l.flatMap (traverse types) := by
  induction l with
  | nil => rfl
  | cons o rest ih => rw [traverseAll, ih, List.flatMap_cons]

/-- Induction on nested objects -/
theorem nested {P : Obj α → Prop} (types : List TreeType) (h0 : ∀ o, ¬ OfTypes types o → P o)
    (h1 : ∀ o, OfTypes types o → (∀ c ∈ items o, P c) → P o) (o : Obj α) : P o := by
  have key : ∀ o : Obj α, (∀ c ∈ items o, P c) → P o := fun o h => by
    by_cases ht : OfTypes types o
    · exact h1 o ht h
    · exact h0 o ht
  refine Obj.rec (motive_1 := P) (motive_2 := fun l => ∀ c ∈ l, P c) (motive_3 := fun l => ∀ c ∈ l.getD [], P c)
    (fun a => key _ (by simp [items])) (fun l ih => key _ ih) (fun l ih => key _ ih) (fun l ih => key _ ih)
    (by simp) (fun o l ho hl => List.forall_mem_cons.2 ⟨ho, hl⟩) (by simp) (fun l ih => ih) o

/-- The positions of the elements of a list of objects, given those of the objects -/
theorem positions_all {types : List TreeType} (l : List (Obj α)) (n : Nat)
    (h : ∀ c ∈ l, ∃ ps : List (List Nat), ps.Pairwise (· < ·) ∧ (∀ p, p ∈ ps ↔ ∃ x, ElementAt types c p x) ∧
      List.Forall₂ (ElementAt types c) ps (traverse types c)) :
    ∃ ps : List (List Nat), ps.Pairwise (· < ·) ∧
      (∀ p, p ∈ ps ↔ ∃ i c q x, p = (n + i) :: q ∧ l[i]? = some c ∧ ElementAt types c q x) ∧
      List.Forall₂ (fun p x => ∃ i c q, p = (n + i) :: q ∧ l[i]? = some c ∧ ElementAt types c q x) ps (l.flatMap (traverse types)) := by
  induction l generalizing n with
  | nil => exact ⟨[], List.Pairwise.nil, by simp, List.Forall₂.nil⟩
  | cons o rest ih =>
    obtain ⟨ps, a1, a2, a3⟩ := h o List.mem_cons_self
    obtain ⟨qs, b1, b2, b3⟩ := ih (n + 1) fun c hc => h c (List.mem_cons_of_mem _ hc)
    refine ⟨ps.map (n :: ·) ++ qs, ?_, ?_, ?_⟩
    · refine List.pairwise_append.2 ⟨?_, b1, ?_⟩
      · exact List.pairwise_map.2 (a1.imp fun h => List.cons_lt_cons_iff.2 (.inr ⟨rfl, h⟩))
      · intro a ha b hb
        obtain ⟨q, -, rfl⟩ := List.mem_map.1 ha
        obtain ⟨i, c, q', x, rfl, -⟩ := (b2 b).1 hb
        exact List.cons_lt_cons_iff.2 (.inl (by omega))
    · intro p
      rw [List.mem_append, b2, List.mem_map]
      constructor
      · rintro (⟨q, hq, rfl⟩ | ⟨i, c, q, x, rfl, hc, hx⟩)
        · obtain ⟨x, hx⟩ := (a2 q).1 hq
          exact ⟨0, o, q, x, rfl, rfl, hx⟩
        · exact ⟨i + 1, c, q, x, by rw [Nat.add_assoc, Nat.add_comm 1], hc, hx⟩
      · rintro ⟨i, c, q, x, rfl, hc, hx⟩
        cases i with
        | zero =>
          cases hc
          exact .inl ⟨q, (a2 q).2 ⟨x, hx⟩, rfl⟩
        | succ i => exact .inr ⟨i, c, q, x, by rw [Nat.add_assoc, Nat.add_comm 1], hc, hx⟩
    · rw [List.flatMap_cons]
      refine List.rel_append ?_ ?_
      · rw [List.forall₂_map_left_iff]
        exact a3.imp fun p x hx => ⟨0, o, p, rfl, rfl, hx⟩
      · exact b3.imp fun p x ⟨i, c, q, e, hc, hx⟩ => ⟨i + 1, c, q, by rw [e, Nat.add_assoc, Nat.add_comm 1], hc, hx⟩

/-- **C77 (order).**  `traverse` yields what is found at the positions of the elements which are not nested further: all of them, each
once, from left to right. -/
theorem C77_positions (types : List TreeType) (o : Obj α) :
    ∃ ps : List (List Nat), ps.Pairwise (· < ·) ∧ (∀ p, p ∈ ps ↔ ∃ x, ElementAt types o p x) ∧
      List.Forall₂ (ElementAt types o) ps (traverse types o) := by
  induction o using nested types with
  | h0 o h =>
    refine ⟨[[]], by simp, fun p => ?_, ?_⟩
    · rw [List.mem_singleton]
      constructor
      · rintro rfl
        exact ⟨o, .here h⟩
      · rintro ⟨x, hx⟩
        cases hx with
        | here => rfl
        | inside h' => exact absurd h' h
    · rw [traverse_not h]
      exact .cons (.here h) .nil
  | h1 o h ih =>
    obtain ⟨ps, a1, a2, a3⟩ := positions_all (items o) 0 ih
    refine ⟨ps, a1, fun p => ?_, ?_⟩
    · rw [a2]
      constructor
      · rintro ⟨i, c, q, x, rfl, hc, hx⟩
        rw [Nat.zero_add]
        exact ⟨x, .inside h hc hx⟩
      · rintro ⟨x, hx⟩
        cases hx with
        | here h' => exact absurd h h'
        | inside _ hc hx => exact ⟨_, _, _, x, by rw [Nat.zero_add], hc, hx⟩
    · rw [traverse_of h, traverseAll_eq]
      refine a3.imp ?_
      rintro p x ⟨i, c, q, rfl, hc, hx⟩
      rw [Nat.zero_add]
      exact .inside h hc hx

/-- **C77 (elements).**  Nothing which it yields is of one of the classes to be traversed. -/
theorem C77_elements (types : List TreeType) (o : Obj α) : ∀ x ∈ traverse types o, ¬ OfTypes types x := by
  induction o using nested types with
  | h0 o h =>
    rw [traverse_not h]
    simpa using h
  | h1 o h ih =>
    rw [traverse_of h, traverseAll_eq]
    intro x hx
    obtain ⟨c, hc, hx⟩ := List.mem_flatMap.1 hx
    exact ih c hc x hx

/-- **C77 (again).**  Traversing the list of what it yields, or any list or tuple with the same elements grouped otherwise, yields the same. -/
theorem C77_again {types : List TreeType} (hl : .list ∈ types) (o : Obj α) (parts : List (List (Obj α)))
    (hp : parts.flatten = traverse types o) : traverse types (.list (parts.map .list)) = traverse types o := by
  rw [traverse_of (o := .list _) hl, traverseAll_eq]
  show (parts.map Obj.list).flatMap (traverse types) = _
  rw [List.flatMap_map, ← hp]
  have key : ∀ l : List (Obj α), (∀ x ∈ l, ¬ OfTypes types x) → traverse types (.list l) = l := by
    intro l h
    rw [traverse_of (o := .list l) hl, traverseAll_eq]
    show l.flatMap (traverse types) = l
    induction l with
    | nil => rfl
    | cons x rest ih =>
      rw [List.flatMap_cons, traverse_not (h x List.mem_cons_self), ih fun y hy => h y (List.mem_cons_of_mem _ hy)]
      rfl
  have hall : ∀ l ∈ parts, ∀ x ∈ l, ¬ OfTypes types x := fun l hl x hx =>
    C77_elements types o x (by rw [← hp]; exact List.mem_flatten.2 ⟨l, hl, hx⟩)
  clear hp
  induction parts with
  | nil => rfl
  | cons l rest ih =>
    rw [List.flatMap_cons, List.flatten_cons, key l (hall l List.mem_cons_self), ih fun l' h => hall l' (List.mem_cons_of_mem _ h)]

/-- **C77 (names).**  After `load`, the ruleset has the names of the features of its rules: this is what `traverse` yields, the names of
one rule after the other. -/
theorem C77_names (names : List (List String)) : namesOf names = names.flatten.map .other := by
  unfold namesOf
  rw [traverse_of (o := .list _) (by simp [OfTypes, defaultTypes]), traverseAll_eq]
  show (names.map _).flatMap _ = _
  rw [List.flatMap_map, List.map_flatten, ← List.flatMap_def]
  refine List.flatMap_congr fun l hl => ?_
  clear hl
  rw [traverse_of (o := .list _) (by simp [OfTypes, defaultTypes]), traverseAll_eq]
  show (l.map _).flatMap _ = _
  rw [List.flatMap_map]
  induction l with
  | nil => rfl
  | cons a rest ih => rw [List.flatMap_cons, List.map_cons, ih, traverse]; rfl

/-- The names which the model of `load` keeps are those which `traverse` yields. -/
theorem C77_load (R : RsEnv) (s : RuleSet) : (Save.collectNames R s).2.names = R.strings ((namesOf (s.rules.map fun m => m.rule.cond.names.getD [])).filterMap
    fun | .other a => some a | _ => none) := by
  rw [C77_names, List.filterMap_map]
  show R.strings _ = _
  congr 1
  rw [List.flatMap_def]
  exact (List.filterMap_some (l := List.flatten _)).symm

/-- The example of the docstring, with tuples and rulesets, and with lists only -/
example :
    traverse defaultTypes (.list [.list [.list [.other 1, .other 2], .other 3], .list [.other 4, .tuple [.other 5]], .ruleset none] : Obj Nat) =
      [.other 1, .other 2, .other 3, .other 4, .other 5] ∧
    traverse [.list] (.list [.list [.list [.other 1, .other 2], .other 3], .tuple [.other 4], .ruleset (some [.other 5])] : Obj Nat) =
      [.other 1, .other 2, .other 3, .tuple [.other 4], .ruleset (some [.other 5])] ∧
    ElementAt defaultTypes (.list [.list [], .list [.other 3, .tuple [.other 4]]] : Obj Nat) [1, 1, 0] (.other 4) :=
  ⟨rfl, rfl, .inside (by simp [OfTypes, defaultTypes]) rfl (.inside (by simp [OfTypes, defaultTypes]) rfl
    (.inside (by simp [OfTypes, defaultTypes]) rfl (.here id)))⟩

/-- `C77_again` -/
example : traverse defaultTypes (.list [.list [.other 1], .list [], .list [.other 2, .other 3]] : Obj Nat) =
    traverse defaultTypes (.tuple [.other 1, .list [.other 2, .list [.other 3]]]) :=
  C77_again (by decide) _ [[.other 1], [], [.other 2, .other 3]] rfl

/-- `C77_names` and `C77_load` -/
example : namesOf [["b", "a"], [], ["a"]] = [.other "b", .other "a", .other "a"] := C77_names _

end Verif.TraverseProps
