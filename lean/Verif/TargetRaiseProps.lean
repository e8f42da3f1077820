import Verif.TargetIndexProps
import Verif.StackedFitProps
import Verif.ActivationProps

/-!
# Further properties of targets with an index, and of vectors which are not made of 0 and 1
-/

namespace Verif.RuleSetProps

open Verif Vote RuleSet

/-- **C65 (classes).** Classes have no deviation: `calc_stds` of a ruleset of classification rules raises `TypeError`, whatever the
targets, their index and the stacked activations are. -/
theorem C65_classes_raise {y : Targets} {p : Framed} (h : p.set.ruleType = some .classification) :
    calcStds y p = .error .typeError := by
  unfold calcStds
  rw [h]

example : (Framed.set ⟨started [memberOf .classification 0 [1, 1, 1]] true, rangeIndex 3⟩).ruleType = some .classification := by
  decide +kernel

theorem place_mem {a : List Int} {i : Nat} {l : Int} (h : a[i]? = some l) : i ∈ RFun.places a l := by
  unfold RFun.places
  refine List.mem_filter.2 ⟨List.mem_range.2 (List.getElem?_eq_some_iff.1 h).1, ?_⟩
  simpa using h

theorem place_none {a : List Int} {l : Int} (h : l ∉ a) : RFun.places a l = [] := by
  unfold RFun.places
  refine List.filter_eq_nil_iff.2 fun i _ => ?_
  simp only [decide_eq_true_eq]
  intro hi
  exact h (List.mem_of_getElem? hi)

theorem join_mem {a b : List Int} {l : Int} {x : Option Nat × Option Nat} (hl : l ∈ a ++ b)
    (hx : x ∈ (match RFun.places a l, RFun.places b l with
      | [], q => q.map fun j => (none, some j)
      | p, [] => p.map fun i => (some i, none)
      | p, q => p.flatMap fun i => q.map fun j => (some i, some j))) : x ∈ RFun.joinRows a b := by
  unfold RFun.joinRows
  refine List.mem_flatMap.2 ⟨l, ?_, hx⟩
  rw [List.mem_insertionSort]
  exact List.mem_dedup.2 hl

theorem join_both {a b : List Int} {l : Int} {i j : Nat} (hi : a[i]? = some l) (hj : b[j]? = some l) :
    (some i, some j) ∈ RFun.joinRows a b := by
  have h1 := place_mem hi
  have h2 := place_mem hj
  refine join_mem (l := l) (List.mem_append_left _ (List.mem_of_getElem? hi)) ?_
  cases e1 : RFun.places a l with
  | nil => rw [e1] at h1; cases h1
  | cons x xs =>
    cases e2 : RFun.places b l with
    | nil => rw [e2] at h2; cases h2
    | cons z zs =>
      rw [e1] at h1
      rw [e2] at h2
      exact List.mem_flatMap.2 ⟨i, h1, List.mem_map.2 ⟨j, h2, rfl⟩⟩

theorem join_one {a b : List Int} {l : Int} (h : (l ∈ a ∧ l ∉ b) ∨ (l ∉ a ∧ l ∈ b)) :
    ∃ x ∈ RFun.joinRows a b, x.1 = none ∨ x.2 = none := by
  rcases h with ⟨ha, hb⟩ | ⟨ha, hb⟩
  · obtain ⟨i, hi⟩ := List.getElem?_of_mem ha
    have h1 := place_mem hi
    refine ⟨(some i, none), join_mem (l := l) (List.mem_append_left _ ha) ?_, .inr rfl⟩
    rw [place_none hb]
    cases e1 : RFun.places a l with
    | nil => rw [e1] at h1; cases h1
    | cons x xs =>
      rw [e1] at h1
      exact List.mem_map.2 ⟨i, h1, rfl⟩
  · obtain ⟨j, hj⟩ := List.getElem?_of_mem hb
    have h1 := place_mem hj
    refine ⟨(none, some j), join_mem (l := l) (List.mem_append_right _ hb) ?_, .inl rfl⟩
    rw [place_none ha]
    exact List.mem_map.2 ⟨j, h1, rfl⟩

/-- **C65 (labels which do not match).** When the rows of the stacked activations and of the targets do not have the same labels, but
have one in common, whose target is 0 or a text, `calc_stds` of regression rules and `calc_predictions` of classification rules raise
`TypeError`: 0 is written "zero" before it is multiplied by the activation, which pandas has made a float to write NaN. -/
theorem C65_labels_raise {v : List Label} {ix : List Int} {p : Framed} {c : Columns Nat} {i j : Nat} {l m : Int} {t : Label}
    (hs : p.set.stacked = some c) (hr : p.set.rules ≠ []) (hc : c ≠ []) (hlen : ∀ q ∈ c, q.2.length = p.rows.length)
    (hi : p.rows[i]? = some l) (hj : ix[j]? = some l) (ht : v[j]? = some t) (hz : t = .num (.fin 0) ∨ ∃ x, t = .text x)
    (hm : (m ∈ p.rows ∧ m ∉ ix) ∨ (m ∉ p.rows ∧ m ∈ ix)) :
    (p.set.ruleType = some .regression → calcStds ⟨v, some ix⟩ p = .error .typeError) ∧
      (p.set.ruleType = some .classification → calcPredictions ⟨v, some ix⟩ p = .error .typeError) := by
  have key : ∀ q ∈ c, RFun.conditionalColumnAt p.rows q.2 ⟨v, some ix⟩ = .error .typeError := by
    intro q hq
    have hne : p.rows ≠ Targets.rows ⟨v, some ix⟩ := by
      show p.rows ≠ ix
      rintro e
      rw [e] at hm
      rcases hm with ⟨a, b⟩ | ⟨a, b⟩
      · exact b a
      · exact a b
    unfold RFun.conditionalColumnAt
    rw [if_neg hne]
    simp only
    rw [if_pos]
    rw [Bool.and_eq_true]
    constructor
    · obtain ⟨x, hx, h0⟩ := join_one hm
      refine List.any_eq_true.2 ⟨_, List.mem_map.2 ⟨x, hx, rfl⟩, ?_⟩
      rcases h0 with h0 | h0 <;> simp [h0]
    · refine List.any_eq_true.2 ⟨_, List.mem_map.2 ⟨(some i, some j), join_both hi hj, rfl⟩, ?_⟩
      have hb : i < q.2.length := by
        rw [hlen q hq]
        exact (List.getElem?_eq_some_iff.1 hi).1
      have : t = .num (.fin 0) ∨ ∃ x, t = .text x := hz
      rcases this with rfl | ⟨x, rfl⟩
      · simp only [Option.bind_some, ht, Option.any_some, Bool.and_eq_true]
        exact ⟨by simp [hb], by decide +kernel⟩
      · simp only [Option.bind_some, ht, Option.any_some, Bool.and_eq_true]
        exact ⟨by simp [hb], rfl⟩
  have hn : p.set.rules.length ≠ 0 := fun h => hr (List.length_eq_zero_iff.1 h)
  obtain ⟨q, qs, rfl⟩ := List.exists_cons_of_ne_nil hc
  constructor
  · intro hk
    unfold calcStds
    rw [hk, hs]
    simp only
    rw [if_neg hn]
    unfold RFun.conditionalVarsAt
    rw [List.mapM_cons, key q List.mem_cons_self]
    rfl
  · intro hk
    unfold calcPredictions
    rw [hk, hs]
    simp only
    rw [if_neg hn]
    unfold RFun.conditionalClassesAt
    rw [List.mapM_cons, key q List.mem_cons_self]
    rfl

/-- Targets 0, 2, 4 of labels 0, 1, 5: the deviations exist for the array and raise `TypeError` for the Series; with 1 in place of 0
they exist for both. -/
example : (framed.set.stacked.getD []) ≠ [] ∧ (∀ q ∈ framed.set.stacked.getD [], q.2.length = framed.rows.length) ∧
    framed.rows[0]? = some 0 ∧ (2 : Int) ∈ framed.rows ∧ (2 : Int) ∉ ([0, 1, 5] : List Int) ∧
    calcStds ⟨[.num (.fin 0), .num (.fin 2), .num (.fin 4)], some [0, 1, 5]⟩ framed = .error .typeError ∧
    (calcStds ⟨[.num (.fin 0), .num (.fin 2), .num (.fin 4)], none⟩ framed).isOk = true ∧
    (calcStds ⟨[.num (.fin 1), .num (.fin 2), .num (.fin 4)], some [0, 1, 5]⟩ framed).isOk = true := by
  refine ⟨by decide, by decide, by decide, by decide, by decide, ?_, by decide +kernel, by decide +kernel⟩
  exact (C65_labels_raise (c := framed.set.stacked.getD []) (i := 0) (j := 0) (l := 0) (m := 2) (t := .num (.fin 0)) rfl
    (by decide) (by decide) (by decide) (by decide) rfl rfl (.inl rfl) (.inl (by decide))).1 (by decide)

/-- **C43 is false for classes of two sorts:** a rule whose most frequent classes are a number and a text is fitted without
`STACKED_FIT`; with it `fit` raises `TypeError`, as they cannot be sorted.  When one of them is more frequent, it is fitted. -/
theorem C43_mixed_false :
    let R := kindRs .classification
    let s := started [memberOf .classification 0 [1, 1, 1]] false
    let y : List Label := [.text "a", .num (.fin 1), .text "a", .num (.fin 1), .text "b"]
    let y' : List Label := [.text "a", .num (.fin 1), .text "a", .num (.fin 1), .text "a"]
    (fit R y (some fiveXs) false {} s).1.toOption = some [] ∧
      (fitStacked R y (some fiveXs) {} s).1.map List.length = .error .typeError ∧
      (fitStacked R y' (some fiveXs) {} s).1.toOption = some [] :=
  ⟨by decide +kernel, by decide +kernel, by decide +kernel⟩

end Verif.RuleSetProps

namespace Verif.ActivationProps

open Verif Verif.Spec Verif.Codec Verif.Activation

/-- **C03 is false for arrays of other numbers than 0 and 1.** They are accepted, and taken modulo 256: of 256, 1, 0 what is read is
0, 1, 0, whether raw arrays are stored or not, and of 257, 1, 0 it is 1, 1, 0. -/
theorem C03_bytes_false :
    let read (v : Arr) (raw : Bool) :=
      (step (.read .raw 0) (step (.new [true] (.arr v) true none false)
        ⟨[], { world .str false (fun _ => false) with storeRaw := raw }⟩).2).1
    read [256, 1, 0] true = .ok (.array [0, 1, 0]) ∧ read [256, 1, 0] false = .ok (.array [0, 1, 0]) ∧
      read [257, 1, 0] true = .ok (.array [1, 1, 0]) := by
  decide +kernel

end Verif.ActivationProps
