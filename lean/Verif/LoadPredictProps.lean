import Verif.LoadPredictLemmas
import Verif.LoadPredictSpec
import Verif.SaveProps
import Verif.RuleProps

/-!
# Properties: predictions of a ruleset which was saved and loaded (C83)
-/

namespace Verif.SaveProps

open Verif Save Spec Vote LoadPredict RuleSetProps RuleProps

variable {W : Texts} {R : RsEnv} {by_ : String} {s s0 s' : RuleSet} {t : Save.Table}

/-- **C83 (rules).** Every rule which is loaded predicts on any features what the rule which was saved predicts. -/
theorem C83_rules (h : Reloaded W R by_ s t s0 s') :
    List.Forall₂ (fun m m' => ∀ x, Rule.predict (R.ofKind m.kind) m'.rule (some x) = Rule.predict (R.ofKind m.kind) m.rule (some x)) s.rules s'.rules :=
  (reloaded_back h).1.imp fun _ _ hm x => predict_alike ⟨hm.cond, getattr_prediction hm.prediction⟩ x

/-- **C83 (ruleset), partial.** On any features the ruleset which is loaded predicts what the one which was saved predicts, or raises the
same exception: without weights, with weights by name of rule or with an attribute which is saved.
Missing: rulesets with stacked activations under `STACKED_FIT`, for which it is false (`C83_stacked_false`), and predictions for the
remembered activations, which are not saved (`C83_remembered_false`). -/
theorem C83_predict_partial (h : Reloaded W R by_ s t s0 s') {k : Kind} (hk : s.ruleType = some k) (hu : NotStacked R s)
    {w : Option WeightsArg} (hw : SavedWeights k w) (x : Xs) :
    (RuleSet.predict R (some x) w s').1 = (RuleSet.predict R (some x) w s).1 := by
  obtain ⟨-, e, -, hs, -⟩ := reloaded_back h
  obtain ⟨o, h1, h2⟩ := predict_peers (x := x) hu (.inr hs) hk (e.trans hk) (reloaded_peers h hk hw)
  rw [h1, h2]

/-- **C83 (points).** On any features the ruleset which is loaded selects the points which the one which was saved selects. -/
theorem C83_evaluate (h : Reloaded W R by_ s t s0 s') (x : Xs) : RuleSet.evaluate R s' x = RuleSet.evaluate R s x := by
  obtain ⟨-, -, -, -, hne⟩ := reloaded_back h
  obtain ⟨m, hm⟩ := List.exists_mem_of_ne_nil _ hne
  exact evaluate_peers (reloaded_peers h (h.kinds m hm) (w := none) trivial) x

/-- **C83 (criterion), partial.** On any points and for any measure `calc_criterion` gives the ruleset which is loaded the criterion
which it gives the one which was saved, or raises the same.
Missing: as for `C83_predict_partial`. -/
theorem C83_criterion_partial (h : Reloaded W R by_ s t s0 s') {k : Kind} (hk : s.ruleType = some k) (hu : NotStacked R s)
    {w : Option WeightsArg} (hw : SavedWeights k w) (x : Xs) (y : List Label) (kw : Rule.Kw) :
    (RuleSet.calcCriterion R y (some x) w kw s').1 = (RuleSet.calcCriterion R y (some x) w kw s).1 ∧
      ((RuleSet.calcCriterion R y (some x) w kw s).1 = .ok () →
        (RuleSet.calcCriterion R y (some x) w kw s').2.criterion = (RuleSet.calcCriterion R y (some x) w kw s).2.criterion) := by
  obtain ⟨-, e, -, hs, hne⟩ := reloaded_back h
  exact calcCriterion_peers hu (.inr hs) hk (e.trans hk) (reloaded_peers h hk hw) (fun e => hne (List.length_eq_zero_iff.1 e))

/-- What is loaded from the table of the two rules -/
def loadedRules : RuleSet := (load someTexts someRs "index" (some twoTable) (RuleSet.blank false)).2

theorem twoRules_reloaded : Reloaded someTexts someRs "index" twoRules twoTable (RuleSet.blank false) loadedRules where
  exact := fun _ => rfl
  kinds := twoRules_kind
  rules := twoRules_loadable
  size := Or.inl rfl
  fresh := rfl
  saved := twoRules_table
  loaded := by
    obtain ⟨s', h, -⟩ := C29_rules_partial (s0 := RuleSet.blank false) (fun _ => rfl) twoRules_kind twoRules_loadable (Or.inl rfl) twoRules_table
    unfold loadedRules
    rw [h]

example : Reloaded someTexts someRs "index" twoRules twoTable (RuleSet.blank false) loadedRules ∧ NotStacked someRs twoRules ∧
    SavedWeights .regression (some (.attr "coverage")) ∧
    (RuleSet.predict someRs (some someXs) (some (.attr "coverage")) loadedRules).1 =
      .ok [.label (.num (.fin 1)), .label (.num (.fin 1)), .label (.num (.fin 1)), .label (.num (.fin 1))] :=
  ⟨twoRules_reloaded, .inl rfl, Or.inl (by decide), by
    rw [C83_predict_partial twoRules_reloaded (k := .regression) rfl (.inl rfl) (w := some (.attr "coverage")) (Or.inl (by decide))]
    decide +kernel⟩

/-- Two rows at which no rule of `twoRules` is active -/
def lowXs : Xs := .arr ⟨1, [[.fin (-5)], [.fin (-6)]]⟩

/-- **C83 is false of predictions from stacked activations.**  With `STACKED_FIT` set, the two rules with weights 1 raise `ValueError` on
features where none is active; the ruleset which is loaded has no stacked activations and predicts NaN. -/
theorem C83_stacked_false : ∃ (R : RsEnv) (s s' : RuleSet) (t : Save.Table) (x : Xs) (w : Option WeightsArg),
    Reloaded someTexts R "index" s t (RuleSet.blank true) s' ∧ SavedWeights .regression w ∧ s.ruleType = some .regression ∧
    (RuleSet.predict R (some x) w s).1 = .error .valueError ∧
    (RuleSet.predict R (some x) w s').1 = .ok [.label (.num .nan), .label (.num .nan)] := by
  let R : RsEnv := { someRs with stackedFit := true }
  have hl : ∀ m ∈ twoRules.rules, Loadable someTexts R "index" m := fun m hm =>
    have h := twoRules_loadable m hm
    ⟨h.made, h.finite, h.prediction, h.figures, h.more⟩
  have ht : toTable someTexts R twoRules = .ok (some twoTable) := twoRules_table
  obtain ⟨s', h, -⟩ := C29_rules_partial (R := R) (s0 := RuleSet.blank true) (fun _ => rfl) twoRules_kind hl (Or.inl rfl) ht
  have hr : Reloaded someTexts R "index" twoRules twoTable (RuleSet.blank true) s' :=
    ⟨fun _ => rfl, twoRules_kind, hl, Or.inl rfl, rfl, ht, h⟩
  refine ⟨R, twoRules, s', twoTable, lowXs, some (.series fun _ => some (.fin 1)), hr, trivial, rfl, by decide +kernel, ?_⟩
  have e := C83_predict_partial (s := { twoRules with stacked := none }) (s' := s') (W := someTexts) (R := R) (by_ := "index") (t := twoTable)
    (s0 := RuleSet.blank true) ⟨fun _ => rfl, twoRules_kind, hl, Or.inl rfl, rfl, ht, h⟩ (k := .regression) rfl (.inr rfl)
    (w := some (.series fun _ => some (.fin 1))) trivial lowXs
  rw [e]
  decide +kernel

/-- **C83 (remembered activations).**  They are not saved: without features every ruleset which is loaded raises `ValueError`. -/
theorem C83_remembered (h : Reloaded W R by_ s t s0 s') {w : Option WeightsArg} (hw : w = none ∨ ∃ f, w = some (.series f)) :
    (RuleSet.predict R none w s').1 = .error .valueError := by
  obtain ⟨-, hk, ha, hs, hne⟩ := reloaded_back h
  obtain ⟨m, hm⟩ := List.exists_mem_of_ne_nil _ hne
  exact predict_nothing (hk.trans (h.kinds m hm)) hs (fun e => hne (by
    have := (reloaded_back h).1
    rw [e] at this
    exact List.forall₂_nil_right_iff.1 this)) ha hw

/-- **C83 is false of remembered activations**: the two rules, once fitted, predict for the points they were fitted on without being
given features; the ruleset which is loaded raises `ValueError`. -/
theorem C83_remembered_false : ∃ (s s' : RuleSet) (t : Save.Table), Reloaded someTexts someRs "index" s t (RuleSet.blank false) s' ∧
    (RuleSet.predict someRs none none s).1 = .ok [.label (.num (.fin 1)), .label (.num .nan), .label (.num (.fin 1))] ∧
    (RuleSet.predict someRs none none s').1 = .error .valueError :=
  ⟨twoRules, loadedRules, twoTable, twoRules_reloaded, by decide +kernel, C83_remembered twoRules_reloaded (.inl rfl)⟩

end Verif.SaveProps
