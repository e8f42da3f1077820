import Verif.Save

/-!
# Lemmas: the flags of rules which were read from a file
-/

namespace Verif.LoadFlag

open Verif Save RuleSet

theorem readOthers_leaves {W : Texts} (l : List (String × String)) {r r' : Rule} (h : readOthers W l r = .ok r') :
    (r'.good, r'.badBecause, r'.evaluated, r'.act, r'.sign) = (r.good, r.badBecause, r.evaluated, r.act, r.sign) := by
  induction l generalizing r with
  | nil => cases h; rfl
  | cons p l ih =>
    obtain ⟨a, t⟩ := p
    unfold readOthers at h
    split at h
    · simp only [bind, Except.bind] at h
      split at h
      · cases h
      · have := ih h
        exact this
    · simp only [bind, Except.bind] at h
      split at h
      · cases h
      · rw [ih h]
        split
        · rfl
        · split
          · rfl
          · split
            · rfl
            · split <;> rfl

/-- What the flags of a rule tell which was read -/
def Fresh (m : Member) : Prop :=
  m.rule.good = true ∧ m.rule.badBecause = none ∧ m.rule.evaluated = false ∧ m.rule.act = none ∧ m.rule.sign = .none ∧
    (m.rule.fitted = true ↔ m.rule.prediction ≠ .none)

theorem lineToRule_fresh {W : Texts} {by_ : String} {k : Kind} {l : Line} {m : Member} (h : lineToRule W by_ k l = .ok m) : Fresh m := by
  simp only [lineToRule, bind, Except.bind] at h
  split at h
  · cases h
  split at h
  · cases h
  split at h
  · cases h
  split at h
  · cases h
  split at h
  · cases h
  rename_i r hr
  split at h
  · cases h
  cases h
  have := readOthers_leaves _ hr
  simp only [Prod.mk.injEq] at this
  obtain ⟨h1, h2, h3, h4, h5⟩ := this
  refine ⟨h1, h2, h3, h4, h5, ?_⟩
  show hasPrediction r.prediction = true ↔ r.prediction ≠ .none
  cases r.prediction <;> simp [hasPrediction]

theorem computeSelf_rules {R : RsEnv} {s s' : RuleSet} (h : computeSelf R none s = (.ok (), s')) : s'.rules = s.rules := by
  unfold computeSelf at h
  rw [Py.bind_ok (Py.get_run s)] at h
  obtain ⟨a, s1, h1, h⟩ := Py.bind_eq_ok h
  have e1 := congrArg Prod.snd h1
  have e2 := congrArg Prod.snd h
  rw [Py.ofExcept_run] at e1
  rw [Py.modify_run] at e2
  simp only at e1 e2
  rw [← e2, ← e1]

theorem stackIf_rules {R : RsEnv} {s s' : RuleSet} (h : stackIf (computeStacked R none) s = (.ok (), s')) : s'.rules = s.rules := by
  unfold stackIf at h
  rw [Py.bind_ok (Py.get_run s)] at h
  cases hs : s.stack with
  | false =>
    simp only [hs, Bool.false_eq_true, if_false, Py.pure_run, Prod.mk.injEq, true_and] at h
    rw [h]
  | true =>
    simp only [hs, if_true] at h
    unfold computeStacked at h
    rw [Py.bind_ok (Py.get_run s)] at h
    obtain ⟨a, s1, h1, h⟩ := Py.bind_eq_ok h
    have e1 := congrArg Prod.snd h1
    have e2 := congrArg Prod.snd h
    rw [Py.ofExcept_run] at e1
    rw [Py.modify_run] at e2
    simp only at e1 e2
    rw [← e2, ← e1]

theorem setLoaded_rules {R : RsEnv} {rules : List Member} {s s' : RuleSet} (h : setLoaded R rules s = (.ok (), s')) :
    s'.rules = rules.map (withSizes s.trainSize s.testSize) := by
  unfold setLoaded at h
  rw [Py.bind_ok (Py.modify_run _ _)] at h
  obtain ⟨_, s1, h1, h⟩ := Py.bind_eq_ok h
  obtain ⟨_, s2, h2, h⟩ := Py.bind_eq_ok h
  unfold Save.collectNames at h
  have e := congrArg Prod.snd h
  rw [Py.modify_run] at e
  simp only at e
  rw [← e]
  show s2.rules = _
  rw [stackIf_rules h2, computeSelf_rules h1]

end Verif.LoadFlag
