import Verif.SaveProps

/-!
# The figures of a ruleset which was saved and loaded (C29)
-/

namespace Verif.SaveProps

open Verif Spec Save RuleSetProps

/-- What a figure of the ruleset comes back as: `None` and NaN as NaN, a finite number as the text which was written for it. -/
def ComesBackAs (write : Rat → List Char) (a b : Thresholds.Attr) : Prop :=
  ((a = .none ∨ a = .num .nan) → b = .num .nan) ∧ ∀ x, a = .num (.fin x) → b = .str (String.ofList (write x))

theorem comes_back (W : Texts) (a : Thresholds.Attr) :
    ComesBackAs W.floats.write a (attrOf (valueInTexts W (cellOf W a))) := by
  constructor
  · rintro (rfl | rfl) <;> · unfold cellOf valueInTexts; rw [if_pos W.missing_empty]; rfl
  · rintro x rfl
    have e : cellOf W (.num (.fin x)) = String.ofList (W.floats.write x) := rfl
    unfold valueInTexts
    rw [e, if_neg (W.missing_num x)]
    rfl

/-- **C29 (coverage and criterion of the ruleset).** They do not come back as numbers: where the ruleset had none, the loaded one has NaN,
whatever the ruleset it was loaded into had; where it had a number, the loaded one has the text of the number. -/
theorem C29_figures {W : Texts} {R : RsEnv} {by_ : String} {s s0 : RuleSet} {t : Table} (hr : ∀ x, W.csvRound x = x)
    (hk : ∀ m ∈ s.rules, s.ruleType = some m.kind) (hs : ∀ m ∈ s.rules, Loadable W R by_ m) (hsize : IsSize s.trainSize)
    (h : toTable W R s = .ok (some t)) :
    ∃ s', load W R by_ (some t) s0 = (.ok (), s') ∧ ComesBackAs W.floats.write s.criterion s'.criterion ∧
      ComesBackAs W.floats.write s.rulesetCoverage s'.rulesetCoverage := by
  obtain ⟨s', h1, -, -, -, h2, h3, h4, -⟩ := load_back (s0 := s0) hr hk hs hsize h
  refine ⟨s', h1, h3 ▸ comes_back W _, ?_⟩
  have e : s'.rulesetCoverage = s'.coverage := by
    unfold RuleSet.rulesetCoverage RuleSet.available
    rw [h4]
  rw [e, h2]
  exact comes_back W _

example : ∃ s', load someTexts someRs "index" (some twoTable) (RuleSet.blank false) = (.ok (), s') ∧
    twoRules.criterion = .none ∧ s'.criterion = .num .nan ∧ twoRules.rulesetCoverage = .num (.fin (2 / 3)) ∧ s'.rulesetCoverage = .str "2/3" :=
  let ⟨s', h1, h2, h3⟩ := C29_figures (s0 := RuleSet.blank false) (fun _ => rfl) twoRules_kind twoRules_loadable (Or.inl rfl) twoRules_table
  ⟨s', h1, rfl, h2.1 (.inl rfl), by decide +kernel, (h3.2 (2 / 3) (by decide +kernel)).trans (by decide +kernel)⟩

end Verif.SaveProps
