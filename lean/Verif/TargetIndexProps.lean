import Verif.TargetIndexLemmas
import Verif.RuleSetDemo

/-!
# Properties of targets with an index
-/

namespace Verif.RuleSetProps

open Verif Vote RuleSet

/-- The targets of a call -/
def targetsOf : Call → Targets
  | .fit y _ _ => y
  | .eval y _ _ _ _ => y

/-- The features of a call -/
def featuresOf : Call → Option Xs
  | .fit _ xs _ => xs
  | .eval _ xs _ _ _ => xs

/-- Calls one after the other, none of which raises, and what they return -/
inductive Steps {σ : Type} (run : Call → Py σ (List Member)) : σ → List Call → List (List Member) → σ → Prop where
  | none (s : σ) : Steps run s [] [] s
  | call {s s' s'' : σ} {c : Call} {cs : List Call} {d : List Member} {ds : List (List Member)} :
      run c s = (.ok d, s') → Steps run s' cs ds s'' → Steps run s (c :: cs) (d :: ds) s''

theorem call_agrees {R : RsEnv} {c : Call} {p : Framed} (h : (targetsOf c).index ≠ none ∨ featuresOf c ≠ none ∨ Ranged p) :
    Agrees (targetsOf c) p (c.at R p) (c.plain R p.set) := by
  cases c with
  | fit y xs kw => exact fitAt_agrees h
  | eval y xs keep w kw => exact evalAt_agrees h

/-- **C65 (Series).** With `STACKED_FIT`, `fit` and `eval` of targets given as a Series do the same as with the array of its values,
whatever its index (repeated labels, another order), and whatever calls came before: the same rules are returned, the ruleset is the
same afterwards, the same exception is raised, but for a Series of a wrong length where `fit` raises `ValueError` instead of
`IndexError`. -/
theorem C65_series {R : RsEnv} {c : Call} {p : Framed} (h : (targetsOf c).index ≠ none) :
    (c.at R p).2.set = (c.plain R p.set).2 ∧
      ((c.at R p).1 = (c.plain R p.set).1 ∨ (c.at R p).1 = .error .valueError ∧ (c.plain R p.set).1 = .error .indexError) := by
  obtain ⟨h1, h2, -⟩ := call_agrees (R := R) (p := p) (.inl h)
  exact ⟨h1, h2.imp id fun h => h.2⟩

/-- **C65 (sequences), partial.** After any sequence of calls of `fit` and `eval` which do not raise, with arrays and Series of any
index, the ruleset is the one, and the rules returned are the ones, which the same calls with the values of the targets as arrays
give.  Missing: calls which raise (`C65_raised_false`). -/
theorem C65_sequence_partial {R : RsEnv} {p p' : Framed} {cs : List Call} {ds : List (List Member)} (h0 : Ranged p)
    (h : Steps (Call.at R) p cs ds p') : Steps (Call.plain R) p.set cs ds p'.set := by
  suffices h' : Steps (Call.plain R) p.set cs ds p'.set ∧ Ranged p' from h'.1
  induction h with
  | none s => exact ⟨.none _, h0⟩
  | @call s s' s'' c cs d ds hc _ ih =>
    obtain ⟨h1, h2, h3⟩ := call_agrees (R := R) (c := c) (p := s) (.inr (.inr h0))
    rw [hc] at h1 h2 h3
    obtain ⟨h4, h5⟩ := ih (h3 d rfl h0)
    refine ⟨.call (s' := s'.set) ?_ h4, h5⟩
    rcases h2 with h2 | ⟨-, h2, -⟩
    · exact Prod.ext h2.symm h1.symm
    · cases h2

/-- The targets 1, 2, 4 -/
def numbers124 : List Label := [.num (.fin 1), .num (.fin 2), .num (.fin 4)]

/-- Three rules with their stacked activations -/
def framed : Framed := ⟨threeRules, rangeIndex 3⟩

theorem framed_ranged : Ranged framed := by
  intro c hc
  cases hc
  rfl

theorem goes {σ α} {m : Py σ α} {s : σ} (h : (m s).1.isOk = true) : ∃ d, m s = (.ok d, (m s).2) := by
  rcases hm : m s with ⟨e | d, s'⟩
  · rw [hm] at h
    cases h
  · exact ⟨d, rfl⟩

/-- A fit with targets in another order of labels, then an eval with repeated labels -/
example : Ranged framed ∧ ∃ ds p', Steps (Call.at someRs) framed
    [.fit ⟨numbers124, some [2, 0, 1]⟩ none {}, .eval ⟨numbers124, some [7, 7, 7]⟩ none false none {}] ds p' := by
  obtain ⟨d1, h1⟩ := goes (m := Call.at someRs (.fit ⟨numbers124, some [2, 0, 1]⟩ none {})) (s := framed) (by decide +kernel)
  obtain ⟨d2, h2⟩ := goes (m := Call.at someRs (.eval ⟨numbers124, some [7, 7, 7]⟩ none false none {}))
    (s := (Call.at someRs (.fit ⟨numbers124, some [2, 0, 1]⟩ none {}) framed).2) (by decide +kernel)
  exact ⟨framed_ranged, _, _, .call h1 (.call h2 (.none _))⟩

/-- **C65 (methods called by the user), partial.** `ruleset.calc_predictions(y)` and `ruleset.calc_stds(y)` of a Series with the index
0, 1, … are those of the array of its values.  Missing: another index (`C65_by_label`, `C65_methods_false`). -/
theorem C65_methods_partial {y : Targets} {p : Framed} (h : y.index = some (rangeIndex y.values.length)) :
    calcPredictions y p = calcPredictions ⟨y.values, none⟩ p ∧ calcStds y p = calcStds ⟨y.values, none⟩ p := by
  have e : y.rows = Targets.rows ⟨y.values, none⟩ := by
    unfold Targets.rows
    rw [h]
    rfl
  have ec : ∀ act, RFun.conditionalColumnAt p.rows act y = RFun.conditionalColumnAt p.rows act ⟨y.values, none⟩ := by
    intro act
    unfold RFun.conditionalColumnAt
    rw [e]
  constructor
  · unfold calcPredictions RFun.conditionalClassesAt
    simp only [ec]
  · unfold calcStds RFun.conditionalVarsAt
    simp only [ec]

/-- **C65 (by label).** What they do with the labels 0, 1, … in another order, for stacked activations with a `pd.RangeIndex`: `calc_stds`
and, for classification rules, `calc_predictions` take for row `i` the target whose label is `i`; `calc_predictions` of regression rules
takes the target at place `i`. -/
theorem C65_by_label {n : Nat} {ix : List Int} {v w : List Label} {p : Framed} (h : ix.Perm (rangeIndex n)) (hv : v.length = n)
    (hw : w.length = n) (hp : p.rows = rangeIndex n) (hc : ∀ c, p.set.stacked = some c → ∀ q ∈ c, q.2.length = n)
    (hvw : ∀ j i : Nat, ix[j]? = some (i : Int) → w[i]? = v[j]?) :
    calcStds ⟨v, some ix⟩ p = calcStds ⟨w, none⟩ p ∧
      (p.set.ruleType = some .classification → calcPredictions ⟨v, some ix⟩ p = calcPredictions ⟨w, none⟩ p) ∧
      (p.set.ruleType = some .regression → calcPredictions ⟨v, some ix⟩ p = calcPredictions ⟨v, none⟩ p) := by
  have ec : ∀ act : List Nat, act.length = n →
      RFun.conditionalColumnAt p.rows act ⟨v, some ix⟩ = RFun.conditionalColumnAt p.rows act ⟨w, none⟩ := by
    intro act ha
    rw [hp, RFun.columnAt_perm h hv hw ha hvw, RFun.columnAt_same (by unfold Targets.rows; rw [← hw]; rfl)]
  refine ⟨?_, ?_, ?_⟩
  · unfold calcStds
    cases hk : p.set.ruleType with
    | none => rfl
    | some k =>
      cases k with
      | classification => rfl
      | regression =>
        cases hs : p.set.stacked with
        | none => rfl
        | some c =>
          simp only
          unfold RFun.conditionalVarsAt
          rw [RFun.mapM_congr fun q hq => by rw [ec q.2 (hc c hs q hq)]]
  · intro hk
    unfold calcPredictions
    rw [hk]
    cases hs : p.set.stacked with
    | none => rfl
    | some c =>
      simp only
      unfold RFun.conditionalClassesAt
      rw [RFun.mapM_congr fun q hq => by rw [ec q.2 (hc c hs q hq)]]
  · intro hk
    unfold calcPredictions
    rw [hk]
    cases p.set.stacked <;> rfl

example : ([2, 0, 1] : List Int).Perm (rangeIndex 3) ∧ framed.rows = rangeIndex 3 ∧
    (∀ c, framed.set.stacked = some c → ∀ q ∈ c, q.2.length = 3) ∧ framed.set.ruleType = some .regression ∧
    ∀ j i : Nat, ([2, 0, 1] : List Int)[j]? = some (i : Int) →
      [Label.num (.fin 2), .num (.fin 4), .num (.fin 1)][i]? = numbers124[j]? := by
  refine ⟨by decide, rfl, ?_, rfl, ?_⟩
  · intro c hc q hq
    cases hc
    revert q
    decide
  · intro j i h
    match j, h with
    | 0, h => cases h; rfl
    | 1, h => cases h; rfl
    | 2, h => cases h; rfl

/-- The figure of the last rule -/
def lastOf {α} (r : Except Err (RFun.Series α)) : Option α :=
  match r with
  | .ok l => l.getLast?.map (·.2)
  | .error _ => none

/-- **C65 is false for methods called by the user.**  The third rule activates the first two points, whose targets are 1 and 2: its
variance is 1/2.  For the labels 2, 0, 1 the targets of rows 0 and 1 are 2 and 4, of variance 2, whereas the mean still is that of 1
and 2.  When all three targets have the label 0, row 0 takes them all, and the variance is that of 1, 2 and 4. -/
theorem C65_methods_false :
    lastOf (calcStds ⟨numbers124, none⟩ framed) = some (.fin (1 / 2)) ∧
      lastOf (calcStds ⟨numbers124, some [2, 0, 1]⟩ framed) = some (.fin 2) ∧
      lastOf (calcPredictions ⟨numbers124, some [2, 0, 1]⟩ framed) = some (.num (.fin (3 / 2))) ∧
      lastOf (calcStds ⟨numbers124, some [0, 0, 0]⟩ framed) = some (.fin (7 / 3)) := by
  decide +kernel

/-- Labels 5, 6, 7: no row has a target, and no rule has a deviation. -/
example : lastOf (calcStds ⟨numbers124, some [5, 6, 7]⟩ framed) = some .nan := by decide +kernel

/-- What a fit with a text among the targets, labelled 2, 0, 1, leaves -/
def mishap : Except Err (List Member) × Framed :=
  fitAt someRs ⟨[.text "a", .num (.fin 1), .num (.fin 1)], some [2, 0, 1]⟩ none {} framed

/-- The targets 1, 1, 4 -/
def numbers114 : List Label := [.num (.fin 1), .num (.fin 1), .num (.fin 4)]

/-- **C65 is false after a call which raised.**  `fit` is called by mistake with a text among the targets, which raises `TypeError`;
the index of these targets stays on the stacked activations, and the next `fit`, with an array, gets a wrong deviation.  The targets of
the two points of the third rule are 1 and 1, of deviation 0. -/
theorem C65_raised_false :
    mishap.1.isOk = false ∧
      (Call.at someRs (.fit ⟨numbers114, none⟩ none {}) mishap.2).1.isOk = true ∧
      (Call.at someRs (.fit ⟨numbers114, none⟩ none {}) mishap.2).2.set.rules.getLast?.map (fun m => m.rule.std) ≠
        some (.num (.fin 0)) ∧
      (Call.plain someRs (.fit ⟨numbers114, none⟩ none {}) mishap.2.set).2.rules.getLast?.map (fun m => m.rule.std) =
        some (.num (.fin 0)) := by
  decide +kernel

end Verif.RuleSetProps
