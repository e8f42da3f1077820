import Verif.SetHistoryLemmas
import Verif.RuleSetDemo

/-!
# The announced class of the rules of a ruleset
-/

namespace Verif.SetHistoryProps

open Verif Spec RuleSet RuleSetProps

/-- The rules assigned are of the class which the ruleset announces. -/
def SameClass (s : RuleSet) (rules : List Member) : Prop := ∀ m ∈ rules, s.ruleType = some m.kind

/-- Anything is assigned. -/
def Anything (_ : RuleSet) (_ : List Member) : Prop := True

/-- **C59 (partial).** After any number of calls, whether they raise or not, a ruleset with rules announces a class (so that reading `rule_type`
does not raise), and all its rules are of this class.  Missing: assignments to `rules` of rules of another class, or to the `rules` of a
ruleset which does not announce a class yet (`C59_assign_false`, `C59_assign_first_false`). -/
theorem C59_class_partial {R : RsEnv} {s : RuleSet} (h : Lived R SameClass s) (hne : s.rules ≠ []) :
    ∃ k, needType s = (.ok k, s) ∧ ∀ m ∈ s.rules, m.kind = k := by
  have ha := Lived.announced (fun _ _ h => h) h
  obtain ⟨m, hm⟩ := List.exists_mem_of_ne_nil _ hne
  refine ⟨m.kind, ?_, fun m' hm' => ?_⟩
  · unfold needType
    rw [Py.bind_ok (Py.get_run s), ha m hm]
    rfl
  · have := (ha m' hm').symm.trans (ha m hm)
    injection this

/-- A classification rule -/
def classRule : Member := ⟨.classification, VoteProps.voter 0 [1, 0, 0] (.text "a")⟩

/-- A classification rule is refused by regression rules, which are then sorted. -/
example : let s := (SetCall.sort none true).after someRs ((SetCall.iaddRule classRule).after someRs twoRules)
    Lived someRs SameClass s ∧ s.rules ≠ [] ∧ (iaddRule someRs classRule twoRules).1 = .error .typeError :=
  ⟨.call _ (.call _ (.make twoRules_made)), by decide +kernel, by decide +kernel⟩

/-- **C59 (refused).** Such a ruleset refuses a rule of another class: `+=` raises `TypeError` and nothing changes. -/
theorem C59_refused_partial {R : RsEnv} {s : RuleSet} {m m' : Member} (h : Lived R SameClass s) (hm : m ∈ s.rules)
    (hk : m'.kind ≠ m.kind) : iaddRule R m' s = (.error .typeError, s) := by
  have ha := Lived.announced (fun _ _ h => h) h
  have hp : pushRule m' s = (.error .typeError, s) := by
    unfold pushRule
    rw [Py.bind_ok (Py.get_run s), ha m hm]
    simp only
    rw [if_neg (fun e => hk e.symm), Py.throw_run]
  unfold iaddRule
  rw [Py.bind_err hp]

example : Lived someRs SameClass twoRules ∧ member 0 [1, 0, 0] ∈ twoRules.rules ∧ classRule.kind ≠ (member 0 [1, 0, 0]).kind :=
  ⟨.make twoRules_made, by decide +kernel, by decide⟩

/-- **C59 is false when rules of another class are assigned:** the ruleset goes on announcing the class of the former rules; then it accepts
a rule of this class, so that it holds rules of two classes, and it refuses rules of the class of the assigned ones. -/
theorem C59_assign_false :
    ∃ s : RuleSet, Lived someRs Anything s ∧ (setRules someRs [classRule] twoRules) = (.ok (), s) ∧
      s.rules.map (·.kind) = [.classification] ∧ s.ruleType = some .regression ∧
      (iaddRule someRs classRule s).1 = .error .typeError ∧
      (iaddRule someRs (member 2 [1, 1, 0]) s).1 = .ok () ∧
      (iaddRule someRs (member 2 [1, 1, 0]) s).2.rules.map (·.kind) = [.classification, .regression] :=
  ⟨(setRules someRs [classRule] twoRules).2, .setRules (.make twoRules_made) trivial, rfl, rfl, rfl, rfl, rfl, rfl⟩

/-- **C59 is false when the first rules are assigned:** the ruleset has rules and announces no class; `fit` and `eval` raise `ValueError`, and
`predict` gives nothing, though all rules have predictions. -/
theorem C59_assign_first_false :
    ∃ s : RuleSet, Lived someRs Anything s ∧
      (setRules someRs [member 0 [1, 0, 0], member 1 [0, 0, 1]] (blank false)) = (.ok (), s) ∧
      s.rules = twoRules.rules ∧ s.ruleType = none ∧
      (∀ y xs force kw, fit someRs y xs force kw s = (.error .valueError, s)) ∧
      (∀ y xs keep w force kw, eval someRs y xs keep w force kw s = (.error .valueError, s)) ∧
      (∀ xs w, predict someRs xs w s = (.ok [], s)) ∧
      (predict someRs none none twoRules).1 = .ok [.label (.num (.fin 1)), .label (.num .nan), .label (.num (.fin 1))] :=
  ⟨(setRules someRs [member 0 [1, 0, 0], member 1 [0, 0, 1]] (blank false)).2, .setRules (.blank false) trivial, rfl, rfl, rfl,
    fun _ _ _ _ => rfl, fun _ _ _ _ _ _ => rfl, fun _ _ => rfl, by decide +kernel⟩

/-- **C59 (assignment).** Assigning rules stores these rules in this order, up to the indexes of their features, and leaves the announced
class. -/
theorem C59_assigned {R : RsEnv} {s s' : RuleSet} {rules : List Member} (h : setRules R rules s = (.ok (), s')) :
    List.Forall₂ (fun m m' => m'.kind = m.kind ∧
      ∃ idx, m'.rule = { m.rule with cond := { m.rule.cond with indexes := idx } }) rules s'.rules ∧ s'.ruleType = s.ruleType := by
  unfold setRules at h
  rw [Py.bind_ok (Py.get_run s)] at h
  obtain ⟨t, s1, h1, h⟩ := Py.bind_eq_ok h
  simp only [Py.ofExcept_run] at h1
  obtain ⟨e1, e2⟩ := Prod.mk.inj h1
  subst e2
  simp only [Py.modify_run] at h
  cases h
  exact ⟨(make_ok e1).same, rfl⟩

/-- **C59 (failed assignment).** When an assignment to `rules` raises, the ruleset is unchanged. -/
theorem C59_assign_error {R : RsEnv} {s s' : RuleSet} {rules : List Member} {e : Err}
    (h : setRules R rules s = (.error e, s')) : s' = s := by
  unfold setRules at h
  rw [Py.bind_ok (Py.get_run s)] at h
  cases hm : make R rules true s.stack with
  | error e' =>
    rw [Py.bind_err (s' := s) (e := e') (by rw [Py.ofExcept_run, hm])] at h
    cases h
    rfl
  | ok t =>
    rw [Py.bind_ok (s' := s) (a := t) (by rw [Py.ofExcept_run, hm]), Py.modify_run] at h
    cases h

example : (setRules someRs [member 2 [1, 1, 0]] twoRules).1 = .ok () ∧
    (setRules someRs [classRule, member 2 [1, 1, 0]] twoRules).1 = .error .typeError := by
  decide +kernel

end Verif.SetHistoryProps
