import Verif.RuleSetLemmas
import Verif.StackLemmas

/-!
# Lemmas about rulesets: construction
-/

namespace Verif.RuleSet

open Verif Vote Spec

variable {R : RsEnv}

theorem computeSelf_ok {xs : Option Xs} {s s' : RuleSet} (h : computeSelf R xs s = (.ok (), s')) :
    ∃ a, evaluateSelf R xs s.rules = .ok a ∧ s' = { s with act := a } := by
  unfold computeSelf at h
  rw [Py.bind_ok (Py.get_run s)] at h
  obtain ⟨a, s1, h1, h⟩ := Py.bind_eq_ok h
  simp only [Py.ofExcept_run] at h1
  obtain ⟨e1, e2⟩ := Prod.mk.inj h1
  subst e2
  simp only [Py.modify_run] at h
  cases h
  exact ⟨a, e1, rfl⟩

theorem computeStacked_ok {xs : Option Xs} {s s' : RuleSet} (h : computeStacked R xs s = (.ok (), s')) :
    ∃ c, evaluateStacked R xs s.rules = .ok c ∧ s' = { s with stacked := c } := by
  unfold computeStacked at h
  rw [Py.bind_ok (Py.get_run s)] at h
  obtain ⟨a, s1, h1, h⟩ := Py.bind_eq_ok h
  simp only [Py.ofExcept_run] at h1
  obtain ⟨e1, e2⟩ := Prod.mk.inj h1
  subst e2
  simp only [Py.modify_run] at h
  cases h
  exact ⟨a, e1, rfl⟩

/-- The same rules up to the indexes of their features -/
def SameButIndexes (l l' : List Member) : Prop :=
  List.Forall₂ (fun m m' => m'.kind = m.kind ∧ ∃ idx, m'.rule = { m.rule with cond := { m.rule.cond with indexes := idx } }) l l'

theorem SameButIndexes.refl (l : List Member) : SameButIndexes l l := by
  induction l with
  | nil => exact .nil
  | cons m l ih => exact .cons ⟨rfl, m.rule.cond.indexes, rfl⟩ ih

theorem reindexRules_ok {l l' : List Member} (h : reindexRules R l = .ok l') : SameButIndexes l l' := by
  induction l generalizing l' with
  | nil =>
    simp only [reindexRules] at h
    cases h
    exact .nil
  | cons m rest ih =>
    simp only [reindexRules, bind, Except.bind] at h
    split at h
    · cases h
    split at h
    · cases h
    split at h
    · cases h
    · rename_i hr
      cases h
      exact .cons ⟨rfl, _, rfl⟩ (ih hr)

theorem setFeaturesIndexes_ok {s s' : RuleSet} (h : setFeaturesIndexes R s = (.ok (), s')) :
    ∃ rules idx, SameButIndexes s.rules rules ∧ s' = { s with rules := rules, indexes := idx } ∧
      (R.allIndexes = [] → rules = s.rules ∧ idx = s.indexes) ∧ (R.allIndexes ≠ [] → indexesOf R s.names = .ok idx) := by
  unfold setFeaturesIndexes at h
  rw [Py.bind_ok (Py.get_run s)] at h
  split at h
  · rename_i hl
    have hn : R.allIndexes ≠ [] := by
      intro e
      rw [e] at hl
      simp at hl
    obtain ⟨idx, s1, h1, h⟩ := Py.bind_eq_ok h
    simp only [Py.ofExcept_run] at h1
    obtain ⟨e1, e2⟩ := Prod.mk.inj h1
    subst e2
    rw [Py.bind_ok (Py.modify_run _ _)] at h
    obtain ⟨rules, s2, h2, h⟩ := Py.bind_eq_ok h
    simp only [Py.ofExcept_run] at h2
    obtain ⟨e3, e4⟩ := Prod.mk.inj h2
    subst e4
    simp only [Py.modify_run] at h
    cases h
    exact ⟨rules, idx, reindexRules_ok e3, rfl, fun e => absurd e hn, fun _ => e1⟩
  · rename_i hl
    have hn : R.allIndexes = [] := by
      have := Nat.le_zero.1 (Nat.not_lt.1 hl)
      exact List.length_eq_zero_iff.1 this
    obtain ⟨_, s1, h1, h⟩ := Py.bind_eq_ok h
    simp only [Py.ofExcept_run] at h1
    obtain ⟨e1, e2⟩ := Prod.mk.inj h1
    subst e2
    simp only [Py.pure_run] at h
    cases h
    exact ⟨s.rules, s.indexes, .refl _, rfl, fun _ => ⟨rfl, rfl⟩, fun e => absurd hn e⟩

theorem checkIf_ok {s s' : RuleSet} (h : checkIf R s = (.ok (), s')) :
    s' = s ∧ (R.checkDuplicated = true → checkDuplicatedRules R (decide (s.names.length > 0)) s.rules = .ok ()) := by
  unfold checkIf at h
  rw [Py.bind_ok (Py.get_run s)] at h
  split at h
  · simp only [Py.ofExcept_run] at h
    obtain ⟨e1, e2⟩ := Prod.mk.inj h
    exact ⟨e2.symm, fun _ => e1⟩
  · rename_i hc
    simp only [Py.pure_run] at h
    cases h
    exact ⟨rfl, fun e => absurd e hc⟩

theorem collectNames_ok {s s' : RuleSet} (h : collectNames R s = (.ok (), s')) :
    ∃ l, allNames s.rules = .ok l ∧ s' = { s with names := R.strings l } := by
  unfold collectNames at h
  rw [Py.bind_ok (Py.get_run s)] at h
  obtain ⟨l, s1, h1, h⟩ := Py.bind_eq_ok h
  simp only [Py.ofExcept_run] at h1
  obtain ⟨e1, e2⟩ := Prod.mk.inj h1
  subst e2
  simp only [Py.modify_run] at h
  cases h
  exact ⟨l, e1, rfl⟩

/-- What the constructor makes -/
structure Made (R : RsEnv) (rules : List Member) (compute stack : Bool) (s : RuleSet) : Prop where
  features : ∀ m ∈ rules, m.rule.cond.indexes ≠ none ∧ m.rule.cond.names ≠ none
  type : ∀ m ∈ rules, s.ruleType = some m.kind
  noType : rules = [] → s.ruleType = none
  act : if compute then evaluateSelf R none rules = .ok s.act else s.act = none
  stacked : if stack then evaluateStacked R none rules = .ok s.stacked else s.stacked = none
  names : ∃ l, allNames rules = .ok l ∧ s.names = R.strings l
  same : SameButIndexes rules s.rules
  noIndexes : R.allIndexes = [] → s.rules = rules ∧ s.indexes = addIndexes R [] rules
  indexes : R.allIndexes ≠ [] → indexesOf R s.names = .ok s.indexes
  stack : s.stack = stack
  compute : s.compute = true
  others : s.coverage = .none ∧ s.criterion = .none ∧ s.trainSize = .none ∧ s.testSize = .none
  check : R.checkDuplicated = true → checkDuplicatedRules R (decide (s.names.length > 0)) s.rules = .ok ()

theorem make_ok {rules : List Member} {compute stack : Bool} {s : RuleSet} (h : make R rules compute stack = .ok s) :
    Made R rules compute stack s := by
  unfold make at h
  split at h
  · rename_i x t hi
    cases h
    cases x
    unfold init at hi
    obtain ⟨_, s1, h1, hi⟩ := Py.bind_eq_ok hi
    obtain ⟨_, s2, h2, hi⟩ := Py.bind_eq_ok hi
    obtain ⟨_, s3, h3, hi⟩ := Py.bind_eq_ok hi
    obtain ⟨_, s4, h4, hi⟩ := Py.bind_eq_ok hi
    obtain ⟨_, s5, h5, hi⟩ := Py.bind_eq_ok hi
    obtain ⟨f1, f2, f3, f4, -⟩ := appendAll_ok rfl h1
    have g2 : ∃ a, (if compute then evaluateSelf R none s1.rules = .ok a else a = s1.act) ∧ s2 = { s1 with act := a } := by
      unfold computeIf at h2
      cases compute with
      | true =>
        simp only [if_true] at h2
        obtain ⟨a, e, e'⟩ := computeSelf_ok h2
        exact ⟨a, e, e'⟩
      | false =>
        simp only [Bool.false_eq_true, if_false, Py.pure_run] at h2
        cases h2
        exact ⟨_, rfl, rfl⟩
    obtain ⟨a, ga, rfl⟩ := g2
    have hst : s1.stack = stack := by rw [f3]; rfl
    have hsk : s1.stacked = none := by rw [f3]; rfl
    have g3 : ∃ c, (if stack then evaluateStacked R none s1.rules = .ok c else c = none) ∧
        s3 = { s1 with act := a, stacked := c } := by
      rcases stackIf_ok h3 with ⟨b, rfl⟩ | ⟨b, h3'⟩
      · simp only [hst] at b
        subst b
        exact ⟨none, rfl, by rw [hsk]⟩
      · simp only [hst] at b
        subst b
        obtain ⟨c, e, e'⟩ := computeStacked_ok h3'
        exact ⟨c, e, e'⟩
    obtain ⟨c, gc, rfl⟩ := g3
    obtain ⟨l, gl, rfl⟩ := collectNames_ok h4
    obtain ⟨rules', idx, gr, rfl, n1, n2⟩ := setFeaturesIndexes_ok h5
    obtain ⟨rfl, gk⟩ := checkIf_ok hi
    have hr : s1.rules = rules := by rw [f3]; simp [blank]
    simp only [hr] at *
    refine ⟨f1, f2, f4, ?_, ?_, ⟨l, gl, rfl⟩, gr, ?_, n2, hst, ?_, ?_, gk⟩
    · cases compute with
      | true => exact ga
      | false =>
        simp only [Bool.false_eq_true, if_false] at ga ⊢
        rw [ga, f3]
        rfl
    · exact gc
    · intro e
      obtain ⟨n3, n4⟩ := n1 e
      refine ⟨n3, ?_⟩
      rw [n4, f3]
      rfl
    · rw [f3]; rfl
    · rw [f3]; exact ⟨rfl, rfl, rfl, rfl⟩
  · cases h

end Verif.RuleSet
