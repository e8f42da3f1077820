import Verif.RowOrderRun
import Verif.RuleFlagProps

/-!
# Properties: the order of the points (C67)

`fit` and `eval` of a rule compute the same with the rows of the features and the targets in another order, as long as both are in
the same order.  Numbers are exact here: with rounding the order matters, see `C57_order_false` and `C58_order_false`.
-/

namespace Verif.RowOrderProps

open Verif Spec Rule RuleProps RuleFlagProps RowOrder

/-! ## One call -/

/-- **C67**, `fit`: the outcome is the same, with the same exception if there is one, and the rules are the same but for the order of
their activation vectors: prediction or probabilities of the classes, deviation, z-score, sign, sizes, flags and reasons are equal. -/
theorem C67_fit {E : Env} (hE : OrderFree E) {xs xs' : Xs} {y y' : List Label} (h : SamePoints xs y xs' y') (force : Bool) (kw : Kw) (r : Rule) :
    (fit E y (some xs) force kw r).1 = (fit E y' (some xs') force kw r).1 ∧
      Twins y y' (fit E y (some xs) force kw r).2 (fit E y' (some xs') force kw r).2 := by
  obtain ⟨h1, h2, h3⟩ := fit_order (P := fun a a' => a = a') hE h force kw (r := r) (r' := r) ⟨rfl, rfl⟩
  exact ⟨h1, h2, h3⟩

/-- **C67**, `eval`: the same for the criterion, with or without `recompute_activation`. -/
theorem C67_eval {E : Env} (hE : OrderFree E) {xs xs' : Xs} {y y' : List Label} (h : SamePoints xs y xs' y') (recompute force : Bool) (kw : Kw)
    (r : Rule) :
    (eval E y (some xs) recompute force kw r).1 = (eval E y' (some xs') recompute force kw r).1 ∧
      Twins y y' (eval E y (some xs) recompute force kw r).2 (eval E y' (some xs') recompute force kw r).2 := by
  obtain ⟨h1, h2, h3⟩ := eval_order (P := fun a a' => a = a') hE (fun _ _ => .inl) h recompute force kw (r := r) (r' := r) ⟨rfl, rfl⟩
  exact ⟨h1, h2, h3⟩

/-! ## Any sequence of calls -/

/-- **C67**: any sequence of calls of `fit` and `eval`, each with its own data in its own order, raising or not, has the same outcomes and
gives the same rule but for the order of its activation vector. -/
theorem C67_sequence {E : Env} (hE : OrderFree E) {calls calls' : List DataCall} (h : List.Forall₂ DataCall.Same calls calls') {r r' : Rule}
    (hr : Alike r r') :
    (DataCall.runAll E calls r).1 = (DataCall.runAll E calls' r').1 ∧ Alike (DataCall.runAll E calls r).2 (DataCall.runAll E calls' r').2 := by
  induction h generalizing r r' with
  | nil => exact ⟨rfl, hr⟩
  | @cons c c' l l' hc _ ih =>
    have hstep : (c.run E r).1 = (c'.run E r').1 ∧ Alike (c.run E r).2 (c'.run E r').2 := by
      have hw : ∀ {y y' : List Label} a a', Either Weak y y' a a' → Weak a a' := fun _ _ hh => hh.elim id Strong.weak
      cases hc with
      | fit h force kw =>
        obtain ⟨h1, h2⟩ := fit_order (P := Weak) hE h force kw hr
        exact ⟨h1, h2.imp hw⟩
      | eval h recompute force kw =>
        obtain ⟨h1, h2⟩ := eval_order (P := Weak) hE (fun _ _ => id) h recompute force kw hr
        exact ⟨h1, h2.imp hw⟩
    obtain ⟨h1, h2⟩ := ih hstep.2
    exact ⟨by simp only [DataCall.runAll, hstep.1, h1], h2⟩

/-! ## Examples -/

/-- The points of `someXs` and `fourY` in another order -/
def movedXs : Xs := .arr ⟨1, [[.fin (1 / 2)], [.fin 2], [.fin 0], [.fin 1]]⟩

/-- Their targets -/
def movedY : List Label := [.num (.fin 3), .num (.fin 3), .num (.fin 1), .num (.fin 2)]

theorem moved : SamePoints someXs fourY movedXs movedY := by
  refine ⟨rfl, rfl, rfl, ?_⟩
  decide +kernel

theorem same : SamePoints someXs fourY someXs fourY := ⟨rfl, rfl, rfl, List.Perm.refl _⟩

theorem free (k : Kind) : OrderFree (someEnv k) := ⟨fun _ _ _ => rfl, fun _ _ _ _ _ => rfl⟩

/-- The other order gives another activation vector, and the same prediction and deviation; a rule which is refused is refused in both
orders. -/
example :
    let E := someEnv .regression
    let a := (fit E fourY (some someXs) false {} newRule).2
    let b := (fit E movedY (some movedXs) false {} newRule).2
    SamePoints someXs fourY movedXs movedY ∧ OrderFree E ∧ a.act = some [1, 1, 0, 1] ∧ b.act = some [1, 0, 1, 1] ∧
      a.prediction = .label (.num (.fin 2)) ∧ b.prediction = .label (.num (.fin 2)) ∧ a.std = .num (.fin 1) ∧ b.std = .num (.fin 1) ∧
      a.good = true ∧ b.good = true :=
  ⟨moved, free _, by decide +kernel⟩

/-- The criterion of a fitted rule -/
example :
    let E := someEnv .regression
    let a := (eval E fourY (some someXs) false false {} fittedRule)
    let b := (eval E movedY (some movedXs) false false {} fittedRule)
    a.1 = .ok () ∧ b.1 = .ok () ∧ a.2.criterion = b.2.criterion ∧ a.2.criterion ≠ .none ∧ a.2.act = some [1, 1, 0, 1] ∧
      b.2.act = some [1, 1, 0, 1] := by
  decide +kernel

/-- A sequence of two calls, the first in the one order and the second in the other -/
example :
    let E := someEnv .regression
    let calls := [DataCall.fit fourY someXs false {}, .eval fourY someXs true false {}]
    let calls' := [DataCall.fit movedY movedXs false {}, .eval fourY someXs true false {}]
    List.Forall₂ DataCall.Same calls calls' ∧ Alike newRule newRule ∧ (DataCall.runAll E calls newRule).1 = [.ok (), .ok ()] ∧
      (DataCall.runAll E calls newRule).2.criterion = (DataCall.runAll E calls' newRule).2.criterion ∧
      (DataCall.runAll E calls newRule).2.criterion ≠ .none :=
  ⟨.cons (.fit moved _ _) (.cons (.eval same _ _ _) .nil), ⟨rfl, .inl rfl⟩, by decide +kernel⟩

/-! ## Without features -/

/-- **C67**: without features, `eval` takes the activation of the last `fit`, and the order of the targets matters: targets in another
order than the one of `fit` give another criterion, and no exception. -/
theorem C67_targets_false :
    ∃ (E : Env) (y y' : List Label) (r : Rule), OrderFree E ∧ y.Perm y' ∧ r = (fit E y (some someXs) false {} newRule).2 ∧
      (eval E y none false false {} r).1 = .ok () ∧ (eval E y' none false false {} r).1 = .ok () ∧
      (eval E y none false false {} r).2.criterion ≠ (eval E y' none false false {} r).2.criterion := by
  refine ⟨someEnv .regression, fourY, [.num (.fin 3), .num (.fin 3), .num (.fin 2), .num (.fin 1)], fittedRule, free _, by decide +kernel, rfl, ?_⟩
  decide +kernel

end Verif.RowOrderProps
