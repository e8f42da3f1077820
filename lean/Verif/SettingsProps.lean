import Verif.SettingsLemmas
import Verif.RuleProps

/-!
# Properties of the settings of thresholds (C51)
-/

namespace Verif.SettingsProps

open Settings RuleProps
open Thresholds (Limits)

/-! ## C51 -/

/-- **C51 (thresholds of a class).** After any sequence of `SET_THRESHOLDS`, starting from classes of which only `Rule` (here
`root`) has the attribute, `None`: the last setting on the class itself is in force; without one, the last setting on the nearest
class it is derived from which had one; without any, none. -/
theorem C51_in_force {K : Classes} {root : Nat} (hK : ∀ d, K.table d = if d = root then some none else none)
    (l : List (Nat × Option Limits)) (c : Nat) :
    (∀ (before after : List (Nat × Option Limits)) (near far : List Nat) (a : Nat) (t : Option Limits),
        l = before ++ (a, t) :: after → K.mro c = near ++ a :: far → (∀ p ∈ after, p.1 ≠ a) →
        (∀ p ∈ l, p.1 ∉ near) → root ∉ near → inForce (setAll l K) c = t) ∧
      ((∀ p ∈ l, p.1 ∉ K.mro c) → inForce (setAll l K) c = none) := by
  constructor
  · intro before after near far a t hl hm ha hn hr
    have hnear : near.findSome? (setAll l K).table = none := by
      rw [List.findSome?_eq_none_iff]
      intro d hd
      rw [setAll_table]
      have h1 : l.reverse.find? (fun p => p.1 = d) = none := by
        rw [List.find?_eq_none]
        intro p hp he
        exact hn p (by simpa using hp) ((of_decide_eq_true he) ▸ hd)
      have h2 : d ≠ root := fun e => hr (e ▸ hd)
      simp [h1, hK, h2]
    have hat : (setAll l K).table a = some t := by
      rw [setAll_table, hl]
      have h1 : after.reverse.find? (fun p => p.1 = a) = none := by
        rw [List.find?_eq_none]
        intro p hp he
        exact ha p (by simpa using hp) (of_decide_eq_true he)
      simp [List.find?_append, h1]
    unfold inForce
    rw [setAll_mro, hm, List.findSome?_append, hnear]
    simp [hat]
  · intro h
    unfold inForce
    rw [setAll_mro]
    have h0 : ∀ d ∈ K.mro c, (setAll l K).table d = if d = root then some none else none := by
      intro d hd
      rw [setAll_table]
      have h1 : l.reverse.find? (fun p => p.1 = d) = none := by
        rw [List.find?_eq_none]
        intro p hp he
        exact h p (by simpa using hp) ((of_decide_eq_true he) ▸ hd)
      simp [h1, hK]
    cases hf : (K.mro c).findSome? (setAll l K).table with
    | none => rfl
    | some x =>
      obtain ⟨d, hd, he⟩ := List.exists_of_findSome?_eq_some hf
      rw [h0 d hd] at he
      split at he
      · cases he; rfl
      · cases he

/-- **C51 (what is checked), partial.** `check_thresholds()` checks the rule against the thresholds in force for its class at that
moment, whenever the rule was created: without thresholds nothing changes; a rule which passes them all is left as it is; one which
does not becomes bad because of the first it fails.  Missing: thresholds of the rule itself play no role (`C51_own_false`). -/
theorem C51_checks_partial (E : Env) (K : Classes) (s : SRule) :
    (inForce K s.cls = none → checkThresholds E K s = (.ok (), s)) ∧
    ∀ t, inForce K s.cls = some t →
      ((∀ a ∈ E.names, s.rule.accepts E t a = .ok true) →
        ∃ k, checkThresholds E K s = (.ok (), { s with rule := { s.rule with log := k } })) ∧
      ∀ (before after : List String) (a : String), E.names = before ++ a :: after →
        (∀ b ∈ before, s.rule.accepts E t b = .ok true) → s.rule.accepts E t a = .ok false →
        ∃ k, checkThresholds E K s = (.ok (), { s with rule := { s.rule with log := k, badBecause := some a, good := false } }) := by
  refine ⟨fun h => ?_, fun t ht => ⟨fun ha => ?_, fun before after a hn hb ha => ?_⟩⟩
  · simp [checkThresholds, method, envOf, Rule.checkAll, h]
  · obtain ⟨k, hk⟩ := checkEach_accepted (E := envOf E K s) (t := t) (l := E.names) (r := s.rule) ha
    refine ⟨k, ?_⟩
    have : Rule.checkAll (envOf E K s) s.rule = (.ok (), { s.rule with log := k }) := by
      simp only [Rule.checkAll]
      rw [show (envOf E K s).thresholds = some t from ht]
      exact hk
    simp only [checkThresholds, method, this]
  · obtain ⟨k, hk⟩ := checkEach_refused (E := envOf E K s) (t := t) (a := a) (l2 := after) (l1 := before) (r := s.rule) hb ha
    refine ⟨k, ?_⟩
    have : Rule.checkAll (envOf E K s) s.rule = (.ok (), { s.rule with log := k, badBecause := some a, good := false }) := by
      simp only [Rule.checkAll]
      rw [show (envOf E K s).thresholds = some t from ht]
      rw [← hn] at hk
      exact hk
    simp only [checkThresholds, method, this]

/-- **C51 (what is shown).** `rule.thresholds` are those in force when the rule was created, or those set for the rule since; no
check or fit and no setting of a class changes them. -/
theorem C51_shown (E : Env) (K : Classes) :
    (∀ cls cond act, (create E K cls cond act).2.thresholds = inForce K cls) ∧
    (∀ t s, (setOwn (some t) s).1 = .ok () ∧ (setOwn (some t) s).2.thresholds = some t ∧
      (setOwn (some t) s).2.rule = s.rule ∧ (setOwn (some t) s).2.cls = s.cls) ∧
    (∀ s, (checkThresholds E K s).2.thresholds = s.thresholds) ∧
    ∀ xs y force kw s, (Settings.fit E K xs y force kw s).2.thresholds = s.thresholds := by
  refine ⟨fun _ _ _ => rfl, fun t s => ?_, fun _ => rfl, fun _ _ _ _ _ => rfl⟩
  simp [setOwn, Py.bind_run, SRule.thresholds]

/-- The two classes of the library, 1 and 2, derived from `Rule`, 0. -/
def library : Classes := { mro := fun c => if c = 0 then [0] else [c, 0], table := fun d => if d = 0 then some none else none }

/-- Coverage at least 1/2. -/
def half : Limits := [("coverage", [("min", .num (.fin (1 / 2)))])]

/-- Coverage at least 9/10. -/
def most : Limits := [("coverage", [("min", .num (.fin (9 / 10)))])]

example : (∀ d, library.table d = if d = 0 then some none else none) ∧
    inForce (setAll [(0, some half), (2, some most), (0, none)] library) 2 = some most ∧
    inForce (setAll [(0, some half), (2, some most), (0, some half)] library) 1 = some half ∧
    inForce (setAll [(2, some most)] library) 1 = none := by
  refine ⟨fun _ => rfl, ?_, ?_, ?_⟩ <;> rfl

/-- A new regression rule, and the same rule fitted: coverage 3/4. -/
def newRule : SRule := (create (someEnv .regression) library 2 someCond none).2

/-- Targets of the four rows of `someXs`. -/
def someY : List Label := [.num (.fin 1), .num (.fin 2), .num (.fin 3), .num (.fin 3)]

/-- `fit` on `someXs`. -/
def fitted (K : Classes) (s : SRule) : SRule := (Settings.fit (someEnv .regression) K (some someXs) someY false {} s).2

/-- The hypotheses of `C51_checks_partial` are met by a rule of coverage 3/4, in both ways. -/
example :
    let s := fitted library newRule
    (someEnv .regression).names = [] ++ "coverage" :: ["prediction", "std"] ∧ s.rule.good = true ∧
    inForce (setClass 0 (some half) library) 2 = some half ∧ inForce (setClass 0 (some most) library) 2 = some most ∧
    (∀ a ∈ (someEnv .regression).names, s.rule.accepts (someEnv .regression) half a = .ok true) ∧
    s.rule.accepts (someEnv .regression) most "coverage" = .ok false ∧
    (checkThresholds (someEnv .regression) (setClass 0 (some half) library) s).2.rule.good = true ∧
    (checkThresholds (someEnv .regression) (setClass 0 (some most) library) s).2.rule.good = false := by
  decide +kernel

/-- **C51 is false of thresholds set for one rule**: whatever they are, fitting and checking the rule does the same as without
them; a rule of coverage 3/4 for which at least 9/10 was set stays good. -/
theorem C51_own_false :
    (∀ (E : Env) (K : Classes) (s : SRule) (t : Limits),
      (checkThresholds E K (setOwn (some t) s).2).2.rule = (checkThresholds E K s).2.rule ∧
      ∀ xs y force kw, (Settings.fit E K xs y force kw (setOwn (some t) s).2).2.rule = (Settings.fit E K xs y force kw s).2.rule) ∧
    ∃ s : SRule, (setOwn (some most) newRule) = (.ok (), s) ∧ s.thresholds = some most ∧
      (fitted library s).rule.good = true ∧
      (fitted library s).rule.accepts (someEnv .regression) most "coverage" = .ok false := by
  refine ⟨fun E K s t => ⟨?_, fun xs y force kw => ?_⟩, (setOwn (some most) newRule).2, rfl, ?_, ?_, ?_⟩
  · simp [setOwn, Py.bind_run, checkThresholds, method, envOf]
  · simp [setOwn, Py.bind_run, Settings.fit, method, envOf]
  all_goals decide +kernel

/-- **C51 is false of removing the thresholds of one rule**: `set_thresholds(None)` raises for a rule without thresholds, and
changes nothing for others: the rule is still checked, and still shows its thresholds. -/
theorem C51_remove_false :
    (setOwn none newRule).1 = .error .attributeError ∧
    ∀ t : Limits, setOwn none { newRule with own := some t } = (.ok (), { newRule with own := some t }) := by
  refine ⟨by decide +kernel, fun t => ?_⟩
  simp [setOwn, Py.bind_run]

/-- **C51 is false of "future rules"**: thresholds set for the class after a rule was created make this rule bad, though it
shows none. -/
theorem C51_future_false :
    ∃ s : SRule, s = fitted library newRule ∧ s.rule.good = true ∧ s.thresholds = none ∧
      (checkThresholds (someEnv .regression) (setClass 0 (some most) library) s).2.rule.good = false ∧
      (checkThresholds (someEnv .regression) (setClass 0 (some most) library) s).2.thresholds = none := by
  refine ⟨_, rfl, ?_, ?_, ?_, ?_⟩ <;> decide +kernel

end Verif.SettingsProps
