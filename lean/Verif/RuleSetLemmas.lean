import Verif.RuleSetSpec

/-!
# Lemmas about rulesets: what the operations which add rules do
-/

namespace Verif.RuleSet

open Verif Vote Spec

variable {R : RsEnv}

theorem pushRule_ok {m : Member} {s s' : RuleSet} (h : pushRule m s = (.ok (), s')) :
    (s.ruleType = none ∨ s.ruleType = some m.kind) ∧
      s' = { s with ruleType := some m.kind, rules := s.rules ++ [m] } := by
  unfold pushRule at h
  rw [Py.bind_ok (Py.get_run s)] at h
  cases hk : s.ruleType with
  | none =>
    simp only [hk, Py.modify_run] at h
    cases h
    exact ⟨Or.inl rfl, rfl⟩
  | some k =>
    simp only [hk] at h
    split at h
    · rename_i e
      subst e
      simp only [Py.modify_run] at h
      cases h
      refine ⟨Or.inr rfl, ?_⟩
      rw [← hk]
    · simp at h

theorem noteIndexes_ok {l : Option (List Int)} {s s' : RuleSet} (h : noteIndexes R l s = (.ok (), s')) :
    ∃ l', l = some l' ∧ s' = { s with indexes := R.ints (s.indexes ++ l') } := by
  cases l with
  | none => simp [noteIndexes] at h
  | some l' =>
    simp only [noteIndexes, Py.modify_run] at h
    cases h
    exact ⟨l', rfl, rfl⟩

theorem noteNames_ok {l : Option (List String)} {s s' : RuleSet} (h : noteNames R l s = (.ok (), s')) :
    ∃ l', l = some l' ∧ s' = { s with names := R.strings (s.names ++ l') } := by
  cases l with
  | none => simp [noteNames] at h
  | some l' =>
    simp only [noteNames, Py.modify_run] at h
    cases h
    exact ⟨l', rfl, rfl⟩

/-- What `_update_activation` makes of the activation -/
def NewAct (R : RsEnv) (s : RuleSet) (other new : Option (List Nat)) : Prop :=
  match other with
  | none => new = s.act
  | some v =>
    match s.available with
    | none => v ≠ [] ∧ new = some v
    | some a => ∃ u, union R a v = .ok u ∧ new = some u

theorem updateActivation_ok {o : Option (List Nat)} {s s' : RuleSet} (h : updateActivation R o s = (.ok (), s')) :
    ∃ a, NewAct R s o a ∧ s' = { s with act := a } := by
  cases o with
  | none =>
    simp only [updateActivation, Py.pure_run] at h
    cases h
    exact ⟨_, rfl, rfl⟩
  | some v =>
    simp only [updateActivation] at h
    rw [Py.bind_ok (Py.get_run s)] at h
    unfold NewAct
    cases ha : s.available with
    | none =>
      simp only [ha] at h
      split at h
      · simp at h
      · rename_i hv
        obtain ⟨_, s1, h1, h2⟩ := Py.bind_eq_ok h
        simp only [Py.ofExcept_run] at h1
        obtain ⟨-, e2⟩ := Prod.mk.inj h1
        subst e2
        simp only [Py.modify_run] at h2
        cases h2
        exact ⟨some v, ⟨fun e => hv (by rw [e]; rfl), rfl⟩, rfl⟩
    | some a =>
      simp only [ha] at h
      obtain ⟨u, s1, h1, h2⟩ := Py.bind_eq_ok h
      simp only [Py.ofExcept_run] at h1
      have h1' := Prod.mk.inj h1
      obtain ⟨e1, e2⟩ := h1'
      subst e2
      simp only [Py.modify_run] at h2
      cases h2
      exact ⟨some u, ⟨u, e1, rfl⟩, rfl⟩

theorem updateIf_ok {o : Option (List Nat)} {s s' : RuleSet} (h : updateIf R o s = (.ok (), s')) :
    ∃ a, (s.compute = false → a = s.act) ∧ (s.compute = true → NewAct R s o a) ∧ s' = { s with act := a } := by
  unfold updateIf at h
  rw [Py.bind_ok (Py.get_run s)] at h
  by_cases hc : s.compute = true
  · simp only [hc, if_true] at h
    obtain ⟨a, h1, h2⟩ := updateActivation_ok h
    exact ⟨a, by simp [hc], fun _ => h1, h2⟩
  · simp only [hc, Bool.false_eq_true, if_false, Py.pure_run] at h
    cases h
    exact ⟨_, fun _ => rfl, fun h => absurd h hc, rfl⟩

/-- What `_update_stacked_activation` makes of the stacked activations, with a rule -/
def NewStack (R : RsEnv) (s : RuleSet) (r : Rule) (new : Option (Columns Nat)) : Prop :=
  match r.act with
  | none => new = s.stacked
  | some v => v ≠ [] ∧
    match s.stacked with
    | none => new = some [(R.condStr r.cond, v)]
    | some c => ∃ c', setColumn c (R.condStr r.cond) v = .ok c' ∧ new = some c'

theorem stackRule_ok {r : Rule} {s s' : RuleSet} (h : stackRule R r s = (.ok (), s')) :
    ∃ c, NewStack R s r c ∧ s' = { s with stacked := c } := by
  unfold stackRule at h
  unfold NewStack
  cases ha : r.act with
  | none =>
    simp only [ha, Py.pure_run] at h
    cases h
    exact ⟨_, rfl, rfl⟩
  | some v =>
    simp only [ha] at h
    split at h
    · simp at h
    · rename_i hv
      have hv' : v ≠ [] := fun e => hv (by rw [e]; rfl)
      rw [Py.bind_ok (Py.get_run s)] at h
      cases hc : s.stacked with
      | none =>
        simp only [hc, Py.modify_run] at h
        cases h
        exact ⟨_, ⟨hv', rfl⟩, rfl⟩
      | some c =>
        simp only [hc] at h
        obtain ⟨u, s1, h1, h2⟩ := Py.bind_eq_ok h
        simp only [Py.ofExcept_run] at h1
        obtain ⟨e1, e2⟩ := Prod.mk.inj h1
        subst e2
        simp only [Py.modify_run] at h2
        cases h2
        exact ⟨some u, ⟨hv', u, e1, rfl⟩, rfl⟩

theorem stackIf_ok {u : Py RuleSet Unit} {s s' : RuleSet} (h : stackIf u s = (.ok (), s')) :
    (s.stack = false ∧ s' = s) ∨ (s.stack = true ∧ u s = (.ok (), s')) := by
  unfold stackIf at h
  rw [Py.bind_ok (Py.get_run s)] at h
  cases hc : s.stack with
  | false =>
    simp only [hc, Bool.false_eq_true, if_false, Py.pure_run] at h
    cases h
    exact Or.inl ⟨rfl, rfl⟩
  | true =>
    simp only [hc, if_true] at h
    exact Or.inr ⟨rfl, h⟩

/-- What `+= rule` does when it does not raise -/
theorem iaddRule_ok {m : Member} {s s' : RuleSet} (h : iaddRule R m s = (.ok (), s')) :
    ∃ idx na a c, m.rule.cond.indexes = some idx ∧ m.rule.cond.names = some na ∧
      (s.ruleType = none ∨ s.ruleType = some m.kind) ∧
      (s.compute = false → a = s.act) ∧ (s.compute = true → NewAct R s m.rule.act a) ∧
      (s.stack = false → c = s.stacked) ∧ (s.stack = true → NewStack R s m.rule c) ∧
      s' = { s with
        ruleType := some m.kind, rules := s.rules ++ [m], indexes := R.ints (s.indexes ++ idx),
        names := R.strings (s.names ++ na), act := a, stacked := c } := by
  unfold iaddRule at h
  obtain ⟨_, s1, h1, h⟩ := Py.bind_eq_ok h
  obtain ⟨_, s2, h2, h⟩ := Py.bind_eq_ok h
  obtain ⟨_, s3, h3, h⟩ := Py.bind_eq_ok h
  obtain ⟨_, s4, h4, h⟩ := Py.bind_eq_ok h
  obtain ⟨t, rfl⟩ := pushRule_ok h1
  obtain ⟨idx, ei, rfl⟩ := noteIndexes_ok h2
  obtain ⟨na, en, rfl⟩ := noteNames_ok h3
  obtain ⟨a, a1, a2, rfl⟩ := updateIf_ok h4
  rcases stackIf_ok h with ⟨b, rfl⟩ | ⟨b, h5⟩
  · refine ⟨idx, na, a, s.stacked, ei, en, t, a1, ?_, fun _ => rfl, ?_, rfl⟩
    · exact a2
    · intro hb
      exact absurd (hb.symm.trans b) (by simp)
  · obtain ⟨c, hc, rfl⟩ := stackRule_ok h5
    refine ⟨idx, na, a, c, ei, en, t, a1, a2, ?_, fun _ => hc, rfl⟩
    intro hb
    exact absurd (hb.symm.trans b) (by simp)

theorem pushSet_ok {o s s' : RuleSet} (h : pushSet o s = (.ok (), s')) :
    (∀ k k', s.ruleType = some k → o.ruleType = some k' → k = k') ∧
      s' = { s with ruleType := s.ruleType.or o.ruleType, rules := s.rules ++ o.rules } := by
  unfold pushSet at h
  rw [Py.bind_ok (Py.get_run s)] at h
  cases hk : s.ruleType with
  | none =>
    cases ho : o.ruleType with
    | none =>
      simp only [hk, ho, Py.modify_run] at h
      cases h
      refine ⟨by simp, ?_⟩
      simp
    | some k' =>
      simp only [hk, ho, Py.modify_run] at h
      cases h
      exact ⟨by simp, by simp⟩
  | some k =>
    cases ho : o.ruleType with
    | none =>
      simp only [hk, ho, Py.modify_run] at h
      cases h
      refine ⟨by simp, ?_⟩
      simp
    | some k' =>
      simp only [hk, ho] at h
      split at h
      · rename_i e
        subst e
        simp only [Py.modify_run] at h
        cases h
        refine ⟨by simp, ?_⟩
        simp [hk]
      · simp at h

/-- What `_update_stacked_activation` makes of the stacked activations, with a ruleset -/
def NewStackSet (s o : RuleSet) (new : Option (Columns Nat)) : Prop :=
  match o.available with
  | none => new = s.stacked
  | some _ =>
    match s.stacked with
    | none => new = o.stacked
    | some c => new = some (c ++ o.stacked.getD [])

theorem stackSet_ok {o s s' : RuleSet} (h : stackSet o s = (.ok (), s')) :
    ∃ c, NewStackSet s o c ∧ s' = { s with stacked := c } := by
  unfold stackSet at h
  unfold NewStackSet
  cases ha : o.available with
  | none =>
    simp only [ha, Py.pure_run] at h
    cases h
    exact ⟨_, rfl, rfl⟩
  | some v =>
    simp only [ha] at h
    rw [Py.bind_ok (Py.get_run s)] at h
    cases hc : s.stacked with
    | none =>
      simp only [hc, Py.modify_run] at h
      cases h
      exact ⟨_, rfl, rfl⟩
    | some c =>
      simp only [hc, Py.modify_run] at h
      cases h
      exact ⟨_, rfl, rfl⟩

/-- What `+= ruleset` does when it does not raise -/
theorem iaddSet_ok {o s s' : RuleSet} (h : iaddSet R o s = (.ok (), s')) :
    ∃ a c, (∀ k k', s.ruleType = some k → o.ruleType = some k' → k = k') ∧
      (s.compute = false → a = s.act) ∧ (s.compute = true → NewAct R s o.available a) ∧
      (s.stack = false → c = s.stacked) ∧ (s.stack = true → NewStackSet s o c) ∧
      s' = { s with
        ruleType := s.ruleType.or o.ruleType, rules := s.rules ++ o.rules, indexes := R.ints (s.indexes ++ o.indexes),
        names := R.strings (s.names ++ o.names), act := a, stacked := c } := by
  unfold iaddSet at h
  obtain ⟨_, s1, h1, h⟩ := Py.bind_eq_ok h
  obtain ⟨_, s2, h2, h⟩ := Py.bind_eq_ok h
  obtain ⟨_, s3, h3, h⟩ := Py.bind_eq_ok h
  obtain ⟨_, s4, h4, h⟩ := Py.bind_eq_ok h
  obtain ⟨t, rfl⟩ := pushSet_ok h1
  obtain ⟨_, ei, rfl⟩ := noteIndexes_ok h2
  cases ei
  obtain ⟨_, en, rfl⟩ := noteNames_ok h3
  cases en
  obtain ⟨a, a1, a2, rfl⟩ := updateIf_ok h4
  rcases stackIf_ok h with ⟨b, rfl⟩ | ⟨b, h5⟩
  · refine ⟨a, s.stacked, t, a1, a2, fun _ => rfl, ?_, rfl⟩
    intro hb
    exact absurd (hb.symm.trans b) (by simp)
  · obtain ⟨c, hc, rfl⟩ := stackSet_ok h5
    refine ⟨a, c, t, a1, a2, ?_, fun _ => hc, rfl⟩
    intro hb
    exact absurd (hb.symm.trans b) (by simp)

/-- `append(rule)` does the same as `+= rule`, and sets `_compute_activation`. -/
theorem append_update {m : Member} {s s' : RuleSet} (h : append R m true s = (.ok (), s')) :
    ∃ s1, iaddRule R m s = (.ok (), s1) ∧ s' = { s1 with compute := true, stack := s.stack } := by
  unfold append at h
  rw [Py.bind_ok (Py.get_run s)] at h
  simp only [if_true] at h
  obtain ⟨_, s1, h1, h⟩ := Py.bind_eq_ok h
  simp only [Py.modify_run] at h
  cases h
  exact ⟨s1, h1, rfl⟩

/-- `append(rule, update_activation=False)` -/
theorem append_noupdate {m : Member} {s s' : RuleSet} (h : append R m false s = (.ok (), s')) :
    ∃ idx na, m.rule.cond.indexes = some idx ∧ m.rule.cond.names = some na ∧
      (s.ruleType = none ∨ s.ruleType = some m.kind) ∧
      s' = { s with
        ruleType := some m.kind, rules := s.rules ++ [m], indexes := R.ints (s.indexes ++ idx),
        names := R.strings (s.names ++ na), compute := true } := by
  unfold append at h
  rw [Py.bind_ok (Py.get_run s)] at h
  simp only [Bool.false_eq_true, if_false] at h
  rw [Py.bind_ok (Py.modify_run _ s)] at h
  obtain ⟨_, s1, h1, h⟩ := Py.bind_eq_ok h
  simp only [Py.modify_run] at h
  cases h
  obtain ⟨idx, na, a, c, ei, en, t, a1, -, c1, -, rfl⟩ := iaddRule_ok h1
  obtain rfl := a1 rfl
  obtain rfl := c1 rfl
  exact ⟨idx, na, ei, en, t, rfl⟩

/-- The features added by rules -/
def addIndexes (R : RsEnv) : List Int → List Member → List Int
  | l, [] => l
  | l, m :: rest => addIndexes R (R.ints (l ++ m.rule.cond.indexes.getD [])) rest

/-- The names added by rules -/
def addNames (R : RsEnv) : List String → List Member → List String
  | l, [] => l
  | l, m :: rest => addNames R (R.strings (l ++ m.rule.cond.names.getD [])) rest

theorem appendAll_ok {rules : List Member} {s s' : RuleSet} (hc : s.compute = true)
    (h : appendAll R rules s = (.ok (), s')) :
    (∀ m ∈ rules, m.rule.cond.indexes ≠ none ∧ m.rule.cond.names ≠ none) ∧
      (∀ m ∈ rules, s'.ruleType = some m.kind) ∧
      s' = { s with
        ruleType := s'.ruleType, rules := s.rules ++ rules, indexes := addIndexes R s.indexes rules,
        names := addNames R s.names rules } ∧
      (rules = [] → s'.ruleType = s.ruleType) ∧ (∀ k, s.ruleType = some k → s'.ruleType = some k) := by
  induction rules generalizing s with
  | nil =>
    simp only [appendAll, Py.pure_run] at h
    cases h
    refine ⟨by simp, by simp, ?_, fun _ => rfl, fun _ h => h⟩
    simp [addIndexes, addNames]
  | cons m rest ih =>
    simp only [appendAll] at h
    obtain ⟨_, s1, h1, h⟩ := Py.bind_eq_ok h
    obtain ⟨idx, na, ei, en, t, rfl⟩ := append_noupdate h1
    obtain ⟨i1, i2, i3, i4, i5⟩ := ih rfl h
    refine ⟨?_, ?_, ?_, by simp, ?_⟩
    · intro x hx
      rcases List.mem_cons.1 hx with rfl | hx
      · simp [ei, en]
      · exact i1 x hx
    · intro x hx
      rcases List.mem_cons.1 hx with rfl | hx
      · exact i5 _ rfl
      · exact i2 x hx
    · rw [i3]
      simp [addIndexes, addNames, ei, en, hc]
    · intro k hk
      rw [hk] at t
      simp only [reduceCtorEq, Option.some.injEq, false_or] at t
      subst t
      exact i5 _ rfl

end Verif.RuleSet
