import Verif.RuleSetSpec

/-!
# Vocabulary for C90
-/

namespace Verif.Spec

open Verif Vote

/-- The call `f` on the rules of a list, one after the other, goes through for some and raises `e` for the next: `l'` is what is left. -/
def StoppedAt (R : RsEnv) (f : Env → Py Rule Unit) (e : Err) (l l' : List Member) : Prop :=
  ∃ done done' m r rest, l = done ++ m :: rest ∧ l' = done' ++ ⟨m.kind, r⟩ :: rest ∧ EachDone R f done done' ∧
    f (R.ofKind m.kind) m.rule = (.error e, r)

/-- Plain regression predictions which do not write into the activation of the first rule: there are features, or weights, or the rules are no
regression rules, or no activation is stored as an array. -/
def NoWriting (R : RsEnv) (xs : Option Xs) (w : Option WeightsArg) (s : RuleSet) : Prop :=
  xs ≠ none ∨ w ≠ none ∨ s.ruleType ≠ some .regression ∨ ∀ m ∈ s.rules, R.storedRaw m.rule = false

end Verif.Spec
