import Verif.UnfittedLemmas
import Verif.PredictProps
import Verif.ActiveProps
import Verif.WeightRatioProps

/-!
# Rules without prediction in a ruleset (C22)
-/

namespace Verif.UnfittedProps

open Verif Spec Vote RuleSetProps ActiveProps VoteProps
open _root_.Verif.RuleSet (voteEnv)

/-- **C22 (stacked activations, rules without prediction).** A regression rule whose prediction is `None` takes no part: the prediction at
each point is the mean of those active rules which have a prediction, missing if there is none. -/
theorem C22_unfitted_stacked {R : RsEnv} {s : RuleSet} {xs : Option Xs} {n : Nat} {on : Rule → Nat → Bool} {q : Rule → Option Rat}
    {c : Columns Nat} (hk : s.ruleType = some .regression) (hkind : ∀ m ∈ s.rules, m.kind = .regression)
    (hu : R.stackedFit = true) (hc : s.stacked = some c) (hx : xs = none → c = stackOf (voteEnv R .regression) (rulesOf s) n on)
    (hne : s.rules ≠ []) (hpos : 0 < n)
    (hact : ∀ r ∈ rulesOf s, activationOf (voteEnv R .regression).env xs r = .ok (some (vec n (on r))))
    (hpred : ∀ r ∈ rulesOf s, r.prediction = match q r with | none => .none | some x => .label (.num (.fin x)))
    (hd : DifferentNames (voteEnv R .regression) (rulesOf s)) :
    ∃ l : List Num, RuleSet.predict R xs none s = (.ok (l.map fun x => .label (.num x)), s) ∧ l.length = n ∧
      ∀ i < n, ∃ x, l[i]? = some x ∧ IsMean ((rulesOf s).filter fun r => (q r).isSome) on (fun r => (q r).getD 0) i x := by
  have hp : ∀ r ∈ rulesOf s, r.getPrediction (voteEnv R .regression).env = .ok ((q r).map fun x => .num (.fin x)) := by
    intro r hr
    unfold Rule.getPrediction
    rw [hpred r hr]
    cases q r <;> rfl
  exact ⟨_, predict_stacked hne hk hu hc (stackFor_eq hkind hne hd hx hact) rfl
      (predictStacked_some rfl hpos (by simpa [rulesOf] using hne) hp hd),
    table_length n _, fun i hi => ⟨_, by rw [table, List.getElem?_map, List.getElem?_range hi]; rfl, mean_div i⟩⟩

/-- The rule `five` before it was fitted -/
def fiveUnfitted : Rule := { five with prediction := .none }

/-- The three rules, of which the second one was not fitted -/
def partlyFitted : RuleSet :=
  { setWith .regression [two, fiveUnfitted, seven] with stacked := some [("a", [1, 1, 0]), ("b", [0, 1, 0]), ("c", [0, 0, 1])] }

example : (∃ l : List Num, RuleSet.predict (withStackedFit cleanRs true) none none partlyFitted = (.ok (l.map fun x => .label (.num x)), partlyFitted) ∧
      l.length = 3) ∧
    (RuleSet.predict (withStackedFit cleanRs true) none none partlyFitted).1 =
      .ok [.label (.num (.fin 2)), .label (.num (.fin 2)), .label (.num (.fin 7))] :=
  ⟨let ⟨l, h1, h2, _⟩ := C22_unfitted_stacked (R := withStackedFit cleanRs true) (s := partlyFitted) (xs := none) (n := 3) (on := isOn)
      (q := fun r => if r.prediction = .none then none else some (number r)) rfl (by decide) rfl rfl (fun _ => by decide +kernel)
      (List.cons_ne_nil _ _) (by decide) (by
        simp only [rulesOf, partlyFitted, setWith, List.map_cons, List.map_nil, List.forall_mem_cons, List.not_mem_nil, false_imp_iff,
          implies_true, and_true]
        decide +kernel) (by
        simp only [rulesOf, partlyFitted, setWith, List.map_cons, List.map_nil, List.forall_mem_cons, List.not_mem_nil, false_imp_iff,
          implies_true, and_true]
        exact ⟨rfl, rfl, rfl⟩) (by unfold DifferentNames; decide +kernel)
   ⟨l, h1, h2⟩, by decide +kernel⟩

end Verif.UnfittedProps
