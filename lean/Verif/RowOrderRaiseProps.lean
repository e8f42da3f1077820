import Verif.RowOrderRaise
import Verif.RowOrderSetProps

/-!
# Properties: what `fit` of a ruleset raises, whatever the order of the points (C67)
-/

namespace Verif.RowOrderProps

open Verif Spec RuleSet RowOrder RuleSetProps

/-- **C67 (ruleset, exceptions).** When there is room for every activation, `fit` of a ruleset on the same points in another order raises the
same exception, or goes through for both orders. -/
theorem C67_set_raises {R : RsEnv} (hs : ∀ v, R.env.store v = .ok ()) (hm : ∀ l, R.multi l = .ok ()) (hc : ∀ n, R.clear n = .ok ())
    (hR : ∀ k, OrderFree (R.ofKind k)) {xs xs' : Xs} {y y' : List Label} (hp : SamePoints xs y xs' y') (h0 : xs.length ≠ 0)
    (force : Bool) (kw : Rule.Kw) (s : RuleSet) :
    (∃ e, (RuleSet.fit R y (some xs) force kw s).1 = .error e ∧ (RuleSet.fit R y' (some xs') force kw s).1 = .error e) ∨
      ∃ dropped dropped', (RuleSet.fit R y (some xs) force kw s).1 = .ok dropped ∧ (RuleSet.fit R y' (some xs') force kw s).1 = .ok dropped' := by
  rcases fit_same hs hm hc hR hp h0 force kw s with ⟨e, t, t', h, h'⟩ | ⟨a, a', t, t', h, h', -⟩
  · exact .inl ⟨e, by rw [h], by rw [h']⟩
  · exact .inr ⟨a, a', by rw [h], by rw [h']⟩

/-- The hypotheses hold of three rules of which one is dropped, where both orders go through, and of the same rules with a target which is
not a number, where both raise `TypeError`. -/
example :
    let odd : List Label := [.num (.fin 6), .num (.fin 3), .text "x", .num (.fin 2)]
    let odd' : List Label := [.text "x", .num (.fin 2), .num (.fin 3), .num (.fin 6)]
    (∀ v, someRs.env.store v = .ok ()) ∧ (∀ l, someRs.multi l = .ok ()) ∧ (∀ n, someRs.clear n = .ok ()) ∧
      (∀ k, OrderFree (someRs.ofKind k)) ∧ SamePoints RuleProps.someXs someY movedXs movedSome ∧ RuleProps.someXs.length ≠ 0 ∧
      ((RuleSet.fit someRs someY (some RuleProps.someXs) false {} unfitted).1.toOption.map List.length = some 1) ∧
      ((RuleSet.fit someRs movedSome (some movedXs) false {} unfitted).1.toOption.map List.length = some 1) ∧
      SamePoints movedXs odd RuleProps.someXs odd' ∧
      ((RuleSet.fit someRs odd (some movedXs) false {} unfitted).1.isOk = false) ∧
      ((RuleSet.fit someRs odd' (some RuleProps.someXs) false {} unfitted).1.isOk = false) := by
  refine ⟨fun _ => rfl, fun _ => rfl, fun _ => rfl, fun k => ⟨fun _ _ _ => rfl, fun _ _ _ _ _ => rfl⟩, movedSome_same, by decide +kernel,
    by decide +kernel, by decide +kernel, ⟨rfl, rfl, rfl, ?_⟩, by decide +kernel, by decide +kernel⟩
  decide +kernel

end Verif.RowOrderProps
