import Verif.FrameHeapLemmas
import Verif.RuleSetDemo

/-!
# Rulesets and their stacked activations
-/

namespace Verif.FrameHeapProps

open Verif Spec FrameHeap RuleSetProps

/-- **C60 (partial).** A call on a ruleset changes this ruleset, in the way of the model of rulesets as values, and no other one, its stacked
activations included.  Missing: histories in which a ruleset which has no stacked activations yet gets `+=` of a ruleset which has some
(`C60_join_false`). -/
theorem C60_values_partial {R : RsEnv} {w : World} (h : Reached R (fun w op => ¬ Joins (view w) op) w) (op : Op)
    (hop : ¬ Joins (view w) op) (i : Nat) :
    view (step R w op) i = onlyOne (view w) (asked R w.sets.length (view w) op) i := by
  have hw : Separate w := by
    clear hop
    induction h with
    | start => exact ⟨fun i o k h => by simp at h, fun i j o o' k h => by simp at h⟩
    | step op _ ha ih => exact (step_separate ih op ha).1
  exact (step_separate hw op hop).2 i

/-- Two rulesets, one of which then gets the other -/
def start : World := step someRs (step someRs ⟨[], []⟩ (.create twoRules)) (.create threeRules)

theorem start_reached : Reached someRs (fun w op => ¬ Joins (view w) op) start :=
  .step _ (.step _ .start fun h => h) fun h => h

example : Reached someRs (fun w op => ¬ Joins (view w) op) start ∧ ¬ Joins (view start) (.iaddSet 0 1) ∧
    (view start 0).map (fun s => s.stacked.map List.length) = some (some 2) ∧
    (view (step someRs start (.iaddSet 0 1)) 0).map (fun s => s.stacked.map List.length) = some (some 5) := by
  refine ⟨start_reached, ?_, by decide +kernel, by decide +kernel⟩
  rintro ⟨s, o, hs, -, hn, -⟩
  have : some twoRules = some s := hs
  cases this
  exact absurd hn (by decide +kernel)

/-- An empty ruleset which stacks activations, and another ruleset, which is added to it; then a rule is added to the first one. -/
def joined : World :=
  step someRs (step someRs (step someRs (step someRs ⟨[], []⟩ (.create (RuleSet.blank true))) (.create twoRules)) (.iaddSet 0 1))
    (.iaddRule 0 (member 2 [1, 1, 0]))

/-- **C60 (always).** Whatever has happened, a call which is not about a ruleset leaves all of it but its stacked activations. -/
theorem C60_rest {R : RsEnv} {w : World} {op : Op} {i : Nat} {s : RuleSet} (hs : view w i = some s)
    (hi : ∀ k t, asked R w.sets.length (view w) op = some (k, t) → k ≠ i) :
    ∃ t, view (step R w op) i = some t ∧ { t with stacked := s.stacked } = s := by
  obtain ⟨o, ho, rfl⟩ : ∃ o, w.sets[i]? = some o ∧ shown w o = s := by
    unfold view at hs
    exact Option.map_eq_some_iff.1 hs
  have hset : (step R w op).sets[i]? = some o := by
    rcases step_sets R w op with e | ⟨k, o', t, e, hk⟩ | ⟨o', e⟩
    · rw [e, ho]
    · rw [e, List.getElem?_set_ne (hi k t hk), ho]
    · rw [e, List.getElem?_append_left (List.getElem?_eq_some_iff.1 ho).1, ho]
  exact ⟨shown (step R w op) o, by rw [view, hset]; rfl, rfl⟩

/-- After two rulesets share their stacked activations -/
example : ∃ s t, view joined 1 = some s ∧ view (step someRs joined (.iaddRule 0 (member 3 [0, 0, 1]))) 1 = some t ∧
    s.stacked ≠ t.stacked ∧ s.rules = t.rules :=
  ⟨_, _, rfl, rfl, by decide +kernel, by decide +kernel⟩

/-- **C60 is false when a ruleset is added to one without stacked activations:** adding a rule to the latter then adds a column to the stacked
activations of the former. -/
theorem C60_join_false :
    (view joined 1).map (fun s => s.rules) = some twoRules.rules ∧
      (view joined 1).bind (fun s => s.stacked) = threeRules.stacked ∧ twoRules.stacked ≠ threeRules.stacked := by
  decide +kernel

/-- **C60 is false for what is computed from stacked activations:** after this, a rule is added to the second ruleset, which is fitted with
stacked activations. The new rule, which is activated on the last point only, predicts the mean over the points of the rule which was added to
the first ruleset. -/
theorem C60_fit_false :
    let w := step someRs joined (.iaddRule 1 (member 3 [0, 0, 1]))
    let t := (view w 1).map fun s => RuleSet.fitStacked someRs [.num (.fin 1), .num (.fin 2), .num (.fin 6)] none {} s
    t.map (fun p => p.1.toOption.isSome) = some true ∧
      t.map (fun p => p.2.rules.map fun m => (m.rule.act, m.rule.prediction)) =
        some [(some [1, 0, 0], .label (.num (.fin 1))), (some [0, 0, 1], .label (.num (.fin 6))),
          (some [0, 0, 1], .label (.num (.fin (3 / 2))))] := by
  decide +kernel

end Verif.FrameHeapProps
