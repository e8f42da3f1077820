import Verif.SaveProps
import Verif.LoadFlagLemmas

/-!
# C63: the flags of rules which were read from a file
-/

namespace Verif.LoadFlagProps

open Verif Save RuleSet RuleSetProps LoadFlag

/-- **C63 (rules which were read).** After `load` every rule is good, has no activation and no sign, says that it is fitted exactly if it
has a prediction, and never says that it was evaluated — whatever its criterion and the thresholds are. -/
theorem C63_load {W : Texts} {R : RsEnv} {by_ : String} {t : Option Table} {s s' : RuleSet} (h : load W R by_ t s = (.ok (), s')) :
    ∀ m ∈ s'.rules, m.rule.good = true ∧ m.rule.badBecause = none ∧ m.rule.evaluated = false ∧ m.rule.act = none ∧ m.rule.sign = .none ∧
      (m.rule.fitted = true ↔ m.rule.prediction ≠ .none) := by
  cases t with
  | none =>
    intro m hm
    rw [setLoaded_rules (R := R) (rules := []) h] at hm
    cases hm
  | some t =>
    change (_ >>= _ : Py RuleSet Unit) s = _ at h
    rw [Py.bind_ok (Py.modify_run _ _)] at h
    obtain ⟨_, s1, h1, h⟩ := Py.bind_eq_ok h
    rw [Py.bind_ok (Py.modify_run _ _)] at h
    obtain ⟨_, s2, h2, h⟩ := Py.bind_eq_ok h
    rw [Py.bind_ok (Py.modify_run _ _)] at h
    obtain ⟨rules, s3, h3, h⟩ := Py.bind_eq_ok h
    rw [Py.ofExcept_run] at h3
    replace h3 : t.lines.mapM (fun l => lineToRule W by_ t.kind (rereadLine W t l)) = .ok rules := congrArg Prod.fst h3
    have hall : ∀ m ∈ rules, Fresh m := by
      clear h h1 h2
      generalize t.lines = ls at h3
      induction ls generalizing rules with
      | nil => cases h3; intro m hm; cases hm
      | cons l ls ih =>
        rw [List.mapM_cons] at h3
        simp only [bind, Except.bind] at h3
        split at h3
        · cases h3
        rename_i m0 hm0
        split at h3
        · cases h3
        rename_i ms hms
        cases h3
        intro m hm
        rcases List.mem_cons.1 hm with rfl | hm
        · exact lineToRule_fresh hm0
        · exact ih ms hms m hm
    intro m hm
    rw [setLoaded_rules h] at hm
    obtain ⟨m0, hm0, rfl⟩ := List.mem_map.1 hm
    exact hall m0 hm0

/-- A ruleset of two rules which was saved and read -/
example : ∃ s', load SaveProps.someTexts someRs "index" (some SaveProps.twoTable) (RuleSet.blank false) = (.ok (), s') ∧ s'.rules.length = 2 ∧
    ∀ m ∈ s'.rules, m.rule.good = true ∧ m.rule.evaluated = false :=
  let ⟨s', h1, h2, _⟩ := SaveProps.C29_rules_partial (fun _ => rfl) SaveProps.twoRules_kind SaveProps.twoRules_loadable (Or.inl rfl) SaveProps.twoRules_table
  ⟨s', h1, h2.length_eq.symm, fun m hm => ⟨(C63_load h1 m hm).1, (C63_load h1 m hm).2.2.1⟩⟩

end Verif.LoadFlagProps
