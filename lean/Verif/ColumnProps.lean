import Verif.ColumnLemmas
import Verif.FitProps
import Verif.RuleFlagProps

/-!
# Features which no rule uses do not matter

Property C73.
-/

namespace Verif.ColumnProps

open Spec Vote OnlyUsed
open ConditionProps (reach_build)
open RuleSetProps (unfitted someY)
open RuleProps (someEnv someCond someXs)

/-- `someXs` as a DataFrame, after a column which no rule uses -/
def sideXs : Xs := .frame ⟨["z", "a"], [[.fin 9, .fin 0], [.inf, .fin 1], [.fin 7, .fin 2], [.nan, .fin (1 / 2)]]⟩

theorem side {lo hi : Num} : SameUsed [⟨"a", 0, lo, hi⟩] someXs sideXs := by
  refine ⟨rfl, ?_, ?_, ?_⟩
  all_goals
    intro f hf
    rw [List.mem_singleton.1 hf]
  · show -(1 : Int) ≤ 0 ∧ (0 : Int) < 1
    decide
  · show "a" ∈ ["z", "a"]
    decide
  · rfl

/-- C73, conditions: a condition is true at the same points for two tables of features which have the same values in the columns it uses,
in an array (by number) or in a DataFrame (by name), whatever the other columns. -/
theorem C73_evaluate {c : Cond} {x x' : Xs} (h : SameForCond c x x') : Rule.evaluate c x' = Rule.evaluate c x := (sees_of h).2

theorem someCond_side : SameForCond someCond someXs sideXs :=
  ⟨[⟨"a", 0, .fin 0, .fin 1⟩], reach_build (by_ := "index") (fs := [⟨"a", 0, .fin 0, .fin 1⟩]) (s := true) (by decide +kernel), ⟨rfl, rfl, rfl, rfl⟩, by decide, side⟩

example : SameForCond someCond someXs sideXs ∧ Rule.evaluate someCond sideXs = .ok [1, 1, 0, 1] :=
  ⟨someCond_side, by decide +kernel⟩

/-- C73, arrays: the columns of an array being counted from the beginning, columns added at the end do not matter. -/
theorem C73_widened {c : Cond} {fs : List Feature} {m m' : Mat} (h : Widened m m') (hr : Reach c) (hs : Shows c fs) (hne : fs ≠ [])
    (hf : ∀ f ∈ fs, 0 ≤ f.index ∧ f.index < m.ncols) : SameForCond c (.arr m) (.arr m') ∧ Cond.evaluate c m' = Cond.evaluate c m :=
  have := (⟨fs, hr, hs, hne, sameColumns_widened h hf⟩ : SameForCond c (.arr m) (.arr m'))
  ⟨this, C73_evaluate this⟩

example : Widened ⟨3, [[.fin 0, .nan, .fin 2], [.inf, .fin 0, .fin 2]]⟩ ⟨4, [[.fin 0, .nan, .fin 2, .fin 5], [.inf, .fin 0, .fin 2, .nan]]⟩ ∧
    Cond.evaluate ConditionProps.two ⟨4, [[.fin 0, .nan, .fin 2, .fin 5], [.inf, .fin 0, .fin 2, .nan]]⟩ = .ok [1, 0] :=
  ⟨⟨by decide, .cons ⟨rfl, [.fin 5], rfl⟩ (.cons ⟨rfl, [.nan], rfl⟩ .nil)⟩, by decide +kernel⟩

/-- C73, DataFrames: the order of the columns of a DataFrame and columns with other names do not matter. -/
theorem C73_more {c : Cond} {fs : List Feature} {d d' : Frame} (h : MoreColumns d d') (hr : Reach c) (hs : Shows c fs) (hne : fs ≠ [])
    (hf : ∀ f ∈ fs, f.name ∈ d.columns) : SameForCond c (.frame d) (.frame d') ∧ Cond.evaluateFrame c d' = Cond.evaluateFrame c d :=
  have := (⟨fs, hr, hs, hne, sameColumns_more h hf⟩ : SameForCond c (.frame d) (.frame d'))
  ⟨this, C73_evaluate this⟩

example : MoreColumns ⟨["a", "b"], [[.fin 0, .fin 2], [.fin (-3), .fin 2]]⟩
      ⟨["b", "z", "a"], [[.fin 2, .fin 7, .fin 0], [.fin 2, .nan, .fin (-3)]]⟩ ∧
    Cond.evaluateFrame ConditionProps.two ⟨["b", "z", "a"], [[.fin 2, .fin 7, .fin 0], [.fin 2, .nan, .fin (-3)]]⟩ = .ok [1, 0] :=
  ⟨⟨by decide, by decide, by decide, .cons ⟨rfl, by decide +kernel⟩ (.cons ⟨rfl, by decide +kernel⟩ .nil)⟩, by decide +kernel⟩

/-- C73 is false for conditions about columns counted from the end of an array: with one more column, column -1 is another one. -/
theorem C73_negative_false : ∃ (c : Cond) (fs : List Feature) (m m' : Mat), Widened m m' ∧ Reach c ∧ Shows c fs ∧ fs ≠ [] ∧
    (∀ f ∈ fs, InRange m.ncols f.index) ∧ Cond.evaluate c m = .ok [1] ∧ Cond.evaluate c m' = .ok [0] := by
  refine ⟨{ indexes := some [-1], bmins := some [.fin 0], bmaxs := some [.fin 1], names := some ["a"], impossible := false },
    [⟨"a", -1, .fin 0, .fin 1⟩], ⟨1, [[.fin 0]]⟩, ⟨2, [[.fin 0, .fin 5]]⟩, ⟨by decide, .cons ⟨rfl, [.fin 5], rfl⟩ .nil⟩,
    reach_build (by_ := "index") (fs := [⟨"a", -1, .fin 0, .fin 1⟩]) (s := true) (by decide +kernel), ⟨rfl, rfl, rfl, rfl⟩, by decide, ?_, by decide +kernel, by decide +kernel⟩
  intro f hf
  rw [List.mem_singleton.1 hf]
  exact ⟨by decide, by decide⟩

/-! ## Rules -/

/-- C73, rules: `fit`, `eval` and `predict` have the same outcome and leave the same rule. -/
theorem C73_rule {E : Env} {r : Rule} {x x' : Xs} (h : SameForCond r.cond x x') (y : List Label) (recompute force : Bool) (kw : Rule.Kw) :
    Rule.fit E y (some x') force kw r = Rule.fit E y (some x) force kw r ∧
      Rule.eval E y (some x') recompute force kw r = Rule.eval E y (some x) recompute force kw r ∧
      Rule.predict E r (some x') = Rule.predict E r (some x) :=
  ⟨fit_same (sees_of h) y force kw, eval_same (sees_of h) y recompute force kw, predict_same (sees_of h)⟩

/-- The rule is fitted on the DataFrame. -/
example : SameForCond RuleFlagProps.newRule.cond someXs sideXs ∧
    (Rule.fit (someEnv .regression) RuleFlagProps.fourY (some sideXs) false {} RuleFlagProps.newRule).1 = .ok () ∧
    (Rule.fit (someEnv .regression) RuleFlagProps.fourY (some sideXs) false {} RuleFlagProps.newRule).2.prediction = .label (.num (.fin 2)) ∧
    (Rule.fit (someEnv .regression) RuleFlagProps.fourY (some sideXs) false {} RuleFlagProps.newRule).2.act = some [1, 1, 0, 1] :=
  ⟨someCond_side, by decide +kernel, by decide +kernel, by decide +kernel⟩

/-! ## Rulesets -/

/-- C73, rulesets: `predict` gives the same and leaves the same ruleset. -/
theorem C73_predict {R : RsEnv} {s : RuleSet} {x x' : Xs} (h : ∀ m ∈ s.rules, SameForCond m.rule.cond x x') (w : Option WeightsArg) :
    RuleSet.predict R (some x') w s = RuleSet.predict R (some x) w s := predictSet_same (fun m hm => sees_of (h m hm)) w

/-- C73, rulesets: the activation on new features is the same. -/
theorem C73_set_evaluate {R : RsEnv} {s : RuleSet} {x x' : Xs} (h : ∀ m ∈ s.rules, SameForCond m.rule.cond x x') :
    RuleSet.evaluate R s x' = RuleSet.evaluate R s x := evaluate_same fun m hm => sees_of (h m hm)

/-- C73, rulesets: `fit` has the same outcome (an exception, or the rules dropped) and leaves the same ruleset. -/
theorem C73_fit {R : RsEnv} {s : RuleSet} {x x' : Xs} (hl : x'.length = x.length) (h : ∀ m ∈ s.rules, SameForCond m.rule.cond x x')
    (y : List Label) (force : Bool) (kw : Rule.Kw) :
    RuleSet.fit R y (some x') force kw s = RuleSet.fit R y (some x) force kw s ∧
      RuleSet.fitStacked R y (some x') kw s = RuleSet.fitStacked R y (some x) kw s :=
  ⟨fitSet_same (fun m hm => sees_of (h m hm)) hl y force kw, fitStacked_same (fun m hm => sees_of (h m hm)) hl y kw⟩

/-- C73, rulesets: `eval` has the same outcome and leaves the same ruleset. -/
theorem C73_eval {R : RsEnv} {s : RuleSet} {x x' : Xs} (hl : x'.length = x.length) (h : ∀ m ∈ s.rules, SameForCond m.rule.cond x x')
    (y : List Label) (keep : Bool) (w : Option WeightsArg) (force : Bool) (kw : Rule.Kw) :
    RuleSet.eval R y (some x') keep w force kw s = RuleSet.eval R y (some x) keep w force kw s ∧
      RuleSet.evalStacked R y (some x') keep w kw s = RuleSet.evalStacked R y (some x) keep w kw s :=
  ⟨evalSet_same (fun m hm => sees_of (h m hm)) hl y keep w force kw, evalStacked_same (fun m hm => sees_of (h m hm)) hl y keep w kw⟩

theorem unfitted_side : ∀ m ∈ unfitted.rules, SameForCond m.rule.cond someXs sideXs := by
  have key : ∀ lo : Rat, ConditionProps.build "index" [⟨"a", 0, .fin lo, .fin 9⟩] true =
      .ok { indexes := some [0], bmins := some [.fin lo], bmaxs := some [.fin 9], names := some ["a"], impossible := false } →
      SameForCond { indexes := some [0], bmins := some [.fin lo], bmaxs := some [.fin 9], names := some ["a"], impossible := false }
        someXs sideXs := fun lo hb => ⟨[⟨"a", 0, .fin lo, .fin 9⟩], reach_build hb, ⟨rfl, rfl, rfl, rfl⟩, by simp, side⟩
  have e : unfitted.rules.map (·.rule.cond) = [0, 1, 2].map fun lo : Rat =>
      { indexes := some [0], bmins := some [.fin lo], bmaxs := some [.fin 9], names := some ["a"], impossible := false } := by decide +kernel
  intro m hm
  have := List.mem_map_of_mem (f := fun m : Member => m.rule.cond) hm
  rw [e] at this
  simp only [List.map_cons, List.map_nil, List.mem_cons, List.not_mem_nil, or_false] at this
  rcases this with h | h | h <;> rw [h]
  · exact key 0 (by decide +kernel)
  · exact key 1 (by decide +kernel)
  · exact key 2 (by decide +kernel)

/-- A ruleset of three rules fitted on the DataFrame: one is dropped. -/
example : sideXs.length = someXs.length ∧ (∀ m ∈ unfitted.rules, SameForCond m.rule.cond someXs sideXs) ∧
    (RuleSet.fit RuleSetProps.someRs someY (some sideXs) false {} unfitted).2.rules.map (·.rule.act) = [some [1, 1, 1, 1], some [0, 1, 1, 0]] :=
  ⟨rfl, unfitted_side, by decide +kernel⟩

end Verif.ColumnProps
