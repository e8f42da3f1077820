import Verif.RuleType
import Verif.SetHistoryProps
import Verif.PredictProps

/-!
# Assigning rules and their class (C59)
-/

namespace Verif.RuleTypeProps

open Verif Spec RuleSet RuleSetProps

variable {R : RsEnv} {s t : RuleSet} {rules : List Member}

theorem assignRules_ok (h : make R rules true s.stack = .ok t) (k : Kind) :
    assignRules R rules (.rules k) s = (.ok (), { s with
      rules := t.rules, names := t.names, indexes := t.indexes, stacked := t.stacked, act := t.act, ruleType := some k }) := by
  unfold assignRules setRules setRuleType
  rw [Py.bind_ok (a := ()) (s' := { s with
      rules := t.rules, names := t.names, indexes := t.indexes, stacked := t.stacked, act := t.act })]
  · rfl
  · rw [Py.bind_ok (Py.get_run s), Py.bind_ok (a := t) (s' := s) (by rw [Py.ofExcept_run, h]), Py.modify_run]

/-- **C59 (rules and class assigned).** `s = RuleSet(stack_activation=b); s.rules = rules; s.rule_type = type(rules[0])` gives the same ruleset
as `RuleSet(rules, stack_activation=b)`. -/
theorem C59_typed {b : Bool} {m : Member} (h : make R rules true b = .ok t) (hm : m ∈ rules) :
    assignRules R rules (.rules m.kind) (blank b) = (.ok (), t) := by
  rw [assignRules_ok (s := blank b) h]
  have hM := make_ok h
  obtain ⟨h1, h2, h3, h4⟩ := hM.others
  have h5 := hM.type m hm
  have h6 := hM.stack
  have h7 := hM.compute
  cases t
  simp_all [blank]

/-- **C59 (rules and class assigned to a ruleset which had others).** It announces the class of its rules, and predicts what a new ruleset with
these rules predicts, or raises the same exception. -/
theorem C59_typed_predict {m : Member} (h : make R rules true s.stack = .ok t) (hm : m ∈ rules) :
    ∃ s', assignRules R rules (.rules m.kind) s = (.ok (), s') ∧ (∀ m' ∈ s'.rules, s'.ruleType = some m'.kind) ∧
      ∀ xs w, (RuleSet.predict R xs w s').1 = (RuleSet.predict R xs w t).1 := by
  have hM := make_ok h
  refine ⟨_, assignRules_ok h m.kind, ?_, ?_⟩
  · intro m' hm'
    obtain ⟨i, hi, e⟩ := List.mem_iff_getElem.1 hm'
    have hsame := hM.same
    have hlen := hsame.length_eq
    have hk := (List.forall₂_iff_get.1 hsame).2 i (by simpa [hlen] using hi) hi
    have h1 := hM.type _ (List.getElem_mem (l := rules) (by simpa [hlen] using hi : i < rules.length))
    rw [hM.type m hm] at h1
    show some m.kind = _
    rw [h1, ← e]
    simp only [List.get_eq_getElem] at hk
    rw [hk.1]
  · intro xs w
    have hT := hM.type m hm
    unfold RuleSet.predict
    simp only [Py.bind_ok (Py.get_run _), hT]
    split
    · rfl
    · cases R.stackedFit <;> cases hc : t.stacked
      case refine_2.isFalse.true.some c =>
        simp only [Py.bind_run, Py.ofExcept_run]
        have e : stackFor R xs { s with rules := t.rules, names := t.names, indexes := t.indexes, stacked := some c, act := t.act, ruleType := some m.kind } c =
          stackFor R xs t c := rfl
        rw [e]
        cases stackFor R xs t c with
        | error e => rfl
        | ok c' =>
          simp only
          cases weightsOf R m.kind t.rules w with
          | error e => rfl
          | ok w' => rfl
      all_goals
        simp only [predictUnstacked, Py.bind_run, Py.get_run, Py.ofExcept_run]
        cases weightsOf R m.kind t.rules w with
        | error e => rfl
        | ok w' =>
          simp only [Py.modify_run]
          cases (Vote.predictUnstacked (voteEnv R m.kind) w' xs (t.rules.map (·.rule))).1 <;> rfl

/-- The rules of `twoRules` assigned to a ruleset without rules, and to one with a classification rule -/
example : make someRs [member 0 [1, 0, 0], member 1 [0, 0, 1]] true true = .ok twoRules ∧
    assignRules someRs [member 0 [1, 0, 0], member 1 [0, 0, 1]] (.rules .regression) (blank true) = (.ok (), twoRules) ∧
    ∃ s', assignRules someRs [member 0 [1, 0, 0], member 1 [0, 0, 1]] (.rules .regression) (setWith .classification [VoteProps.voter 2 [1, 0, 0] (.text "a")]) = (.ok (), s') ∧
      (RuleSet.predict someRs none none s').1 = .ok [.label (.num (.fin 1)), .label (.num .nan), .label (.num (.fin 1))] := by
  refine ⟨twoRules_made, C59_typed twoRules_made (List.mem_cons_self ..), _, rfl, by decide +kernel⟩

/-- **C59 (another class).** A class which is no class of rules is refused, and the ruleset is unchanged. -/
theorem C59_type_refused : setRuleType .other s = (.error .typeError, s) := rfl

end Verif.RuleTypeProps
