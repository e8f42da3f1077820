import Verif.ScaleSetLemmas
import Verif.ScaleProps
import Verif.PredictProps

/-!
# The scale of the features does not matter: rulesets (C70)
-/

namespace Verif.Scales

open Verif Spec Cond ConditionProps RuleSetProps VoteProps Vote

/-- The condition `c'` of a rule is the condition `c` in other units, and `xs'` are the features in these units. -/
def InUnits (h : String → Rat → Rat) (xs xs' : Xs) (c c' : Cond) : Prop :=
  ∃ fs, Reach c ∧ Shows c fs ∧ Reach c' ∧ Shows c' (fs.map (scaled h)) ∧ Rescaled h fs xs xs'

theorem twinRules {h : String → Rat → Rat} {S : SetEnv} {conv : Rule → Cond} {rules : List Rule} {xs xs' : Xs} (hh : ∀ n, StrictMono (h n))
    (hu : ∀ r ∈ rules, InUnits h xs xs' r.cond (conv r))
    (hn : ∀ r ∈ rules, ∀ q ∈ rules, S.condStr (conv r) = S.condStr (conv q) ↔ S.condStr r.cond = S.condStr q.cond) :
    TwinRules S conv rules xs xs' := by
  refine ⟨?_, ?_, hn⟩
  · intro r hr
    obtain ⟨fs, h1, h2, h3, h4, h5⟩ := hu r hr
    exact C70_evaluate hh h1 h2 h3 h4 h5
  · intro r hr
    obtain ⟨fs, h1, h2, h3, h4, h5⟩ := hu r hr
    exact (sameView (xs := some xs) (xs' := some xs') hh h1 h2 h3 h4 h5).len

/-- **C70 (ruleset).** A ruleset and the ruleset with the conditions of its rules in other units give the same predictions — or raise the
same exception — each on the features in its units: without weights, with the same weights for corresponding rules, and with the same
attribute of the rules as weights; with stacked activations or without. The texts of the conditions must tell the rules apart in both units
(two conditions with the same text share a column and a weight). -/
theorem C70_predict_set {R : RsEnv} {h : String → Rat → Rat} {s s' : RuleSet} {conv : Rule → Cond} {xs xs' : Xs} {w w' : Option WeightsArg}
    (hE : ∀ k, CondFree (R.ofKind k)) (hh : ∀ n, StrictMono (h n)) (hr : s'.rules = s.rules.map fun m => { m with rule := recond (conv m.rule) m.rule })
    (ht : s'.ruleType = s.ruleType) (hst : s'.stacked.isSome = s.stacked.isSome)
    (hu : ∀ m ∈ s.rules, InUnits h xs xs' m.rule.cond (conv m.rule))
    (hn : ∀ m ∈ s.rules, ∀ q ∈ s.rules,
      R.condStr (conv m.rule) = R.condStr (conv q.rule) ↔ R.condStr m.rule.cond = R.condStr q.rule.cond)
    (hw : SameArg R.toSetEnv conv (s.rules.map (·.rule)) w w') :
    ∃ o, RuleSet.predict R (some xs) w s = (o, s) ∧ RuleSet.predict R (some xs') w' s' = (o, s') := by
  refine predict_twin (conv := conv) hr ht hst hE (fun k => twinRules hh ?_ ?_) (fun k => hw)
  · intro r hr
    obtain ⟨m, hm, rfl⟩ := List.mem_map.1 hr
    exact hu m hm
  · intro r hr q hq
    obtain ⟨m, hm, rfl⟩ := List.mem_map.1 hr
    obtain ⟨m', hm', rfl⟩ := List.mem_map.1 hq
    exact hn m hm m' hm'

/-- **C70 (activation of a ruleset).** The points covered by a ruleset do not depend on the units of the features. -/
theorem C70_activation_set {R : RsEnv} {h : String → Rat → Rat} {conv : Rule → Cond} {ms : List Member} {xs xs' : Xs}
    (hh : ∀ n, StrictMono (h n)) (hu : ∀ m ∈ ms, InUnits h xs xs' m.rule.cond (conv m.rule)) :
    RuleSet.evaluateSelf R (some xs') (ms.map fun m => { m with rule := recond (conv m.rule) m.rule }) =
      RuleSet.evaluateSelf R (some xs) ms := by
  have hv : ∀ r ∈ ms.map (·.rule), Rule.evaluate (conv r) xs' = Rule.evaluate r.cond xs := by
    intro r hr
    obtain ⟨m, hm, rfl⟩ := List.mem_map.1 hr
    obtain ⟨fs, h1, h2, h3, h4, h5⟩ := hu m hm
    exact C70_evaluate hh h1 h2 h3 h4 h5
  unfold RuleSet.evaluateSelf
  have : RuleSet.activations R (some xs') (ms.map fun m => { m with rule := recond (conv m.rule) m.rule }) = RuleSet.activations R (some xs) ms :=
    activations_twin R ms hv
  rw [this, List.length_map]

/-! ## The hypotheses on two rules -/

/-- One more for every feature -/
def more (_ : String) (q : Rat) : Rat := q + 1

theorem more_mono (n : String) : StrictMono (more n) := fun a b h => by
  show a + 1 < b + 1
  linarith

/-- The rules 0 ≤ a ≤ 9 and 1 ≤ a ≤ 9 become 1 ≤ a ≤ 10 and 2 ≤ a ≤ 10. -/
def moreCond (r : Rule) : Cond :=
  { r.cond with bmins := r.cond.bmins.map (List.map (onNum (more "a"))), bmaxs := r.cond.bmaxs.map (List.map (onNum (more "a"))) }

/-- Three points -/
def lessXs : Xs := .arr ⟨1, [[.fin (1 / 2)], [.fin 3], [.nan]]⟩
def moreXs : Xs := .arr ⟨1, [[.fin (3 / 2)], [.fin 4], [.nan]]⟩

def duo : List Rule := [voter 0 [1, 1, 0] (.num (.fin 10)), voter 1 [0, 1, 0] (.num (.fin 20))]

def duoSet (stacked : Bool) (rules : List Rule) : RuleSet :=
  { setWith .regression rules with stacked := if stacked then some [] else none }

theorem duo_units : ∀ r ∈ duo, InUnits more lessXs moreXs r.cond (moreCond r) := by
  have hx : ∀ f : Feature, f.name = "a" → Rescaled more [f] lessXs moreXs := by
    intro f hf
    refine ⟨fun _ => more "a", fun _ => more_mono _, fun g hg => ?_, ?_⟩
    · rw [List.mem_singleton.1 hg, hf]
    · simp [lessXs, moreXs, scaledMat, onNum, more, List.mapIdx, List.mapIdx.go]; norm_num
  intro r hr
  rcases List.mem_cons.1 hr with rfl | hr
  · exact ⟨[⟨"a", 0, .fin 0, .fin 9⟩], reach_build (by_ := "index") (fs := [⟨"a", 0, .fin 0, .fin 9⟩]) (s := true) (by decide +kernel),
      ⟨rfl, rfl, rfl, rfl⟩, reach_build (by_ := "index") (fs := [⟨"a", 0, .fin 1, .fin 10⟩]) (s := true) (by decide +kernel),
      ⟨rfl, rfl, rfl, rfl⟩, hx _ rfl⟩
  · rw [List.mem_singleton.1 hr]
    exact ⟨[⟨"a", 0, .fin 1, .fin 9⟩], reach_build (by_ := "index") (fs := [⟨"a", 0, .fin 1, .fin 9⟩]) (s := true) (by decide +kernel),
      ⟨rfl, rfl, rfl, rfl⟩, reach_build (by_ := "index") (fs := [⟨"a", 0, .fin 2, .fin 10⟩]) (s := true) (by decide +kernel),
      ⟨rfl, rfl, rfl, rfl⟩, hx _ rfl⟩

/-- The weights 1 and 3 for the two rules, called "a" and "b" in one unit and "b" and "c" in the other -/
example (stacked : Bool) : ∃ o,
    RuleSet.predict { someRs with stackedFit := stacked } (some lessXs) (some (.series (someWeights 1 3 0))) (duoSet stacked duo) =
      (o, duoSet stacked duo) ∧
    RuleSet.predict { someRs with stackedFit := stacked } (some moreXs) (some (.series (someWeights 0 1 3)))
      (duoSet stacked (duo.map fun r => recond (moreCond r) r)) = (o, duoSet stacked (duo.map fun r => recond (moreCond r) r)) := by
  refine C70_predict_set (s := duoSet stacked duo) (s' := duoSet stacked (duo.map fun r => recond (moreCond r) r)) (h := more) (conv := moreCond)
    (fun k => fun _ _ _ => rfl) more_mono rfl rfl rfl ?_ ?_ ?_
  · intro m hm
    obtain ⟨r, hr, rfl⟩ := List.mem_map.1 hm
    exact duo_units r hr
  · have : ∀ r ∈ duo, ∀ q ∈ duo, someRs.condStr (moreCond r) = someRs.condStr (moreCond q) ↔ someRs.condStr r.cond = someRs.condStr q.cond := by
      decide +kernel
    intro m hm q hq
    obtain ⟨r, hr, rfl⟩ := List.mem_map.1 hm
    obtain ⟨t, ht, rfl⟩ := List.mem_map.1 hq
    exact this r hr t ht
  · have : ∀ r ∈ duo, someWeights 0 1 3 (someRs.condStr (moreCond r)) = someWeights 1 3 0 (someRs.condStr r.cond) := by decide +kernel
    intro r hr
    obtain ⟨m, hm, rfl⟩ := List.mem_map.1 hr
    obtain ⟨t, ht, rfl⟩ := List.mem_map.1 hm
    exact this t ht

/-- What they predict, and the points they cover -/
example :
    (RuleSet.predict someRs (some moreXs) (some (.series (someWeights 0 1 3))) (duoSet false (duo.map fun r => recond (moreCond r) r))).1 =
      .ok [.label (.num (.fin 10)), .label (.num (.fin (35 / 2))), .label (.num .nan)] ∧
    (RuleSet.predict { someRs with stackedFit := true } (some moreXs) (some (.series (someWeights 0 1 3)))
      (duoSet true (duo.map fun r => recond (moreCond r) r))).1 = .ok [.label (.num (.fin 10)), .label (.num (.fin (35 / 2))), .label (.num .nan)] ∧
    RuleSet.evaluateSelf someRs (some lessXs) (duoSet false duo).rules = .ok (some [1, 1, 0]) := by
  decide +kernel

end Verif.Scales
