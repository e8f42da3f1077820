import Verif.RuleSet

/-!
# The same points in another order
-/

namespace Verif.Spec

open Verif

/-- `xs'` and `y'` have the points of `xs` with their targets, possibly in another order: the same columns, and the same pairs of a
row and a target. -/
def SamePoints : Xs → List Label → Xs → List Label → Prop
  | .arr m, y, .arr m', y' => m.ncols = m'.ncols ∧ m.rows.length = y.length ∧ m'.rows.length = y'.length ∧ (m.rows.zip y).Perm (m'.rows.zip y')
  | .frame f, y, .frame f', y' => f.columns = f'.columns ∧ f.rows.length = y.length ∧ f'.rows.length = y'.length ∧
      (f.rows.zip y).Perm (f'.rows.zip y')
  | _, _, _, _ => False

/-- The activation vectors `v`, `v'` are those of the same points with the targets `y`, `y'`, possibly in another order. -/
def SameActive (v : List Nat) (y : List Label) (v' : List Nat) (y' : List Label) : Prop :=
  v.length = y.length ∧ v'.length = y'.length ∧ (v.zip y).Perm (v'.zip y')

/-- The two rules only differ by the order of the points in their activation vectors: all other attributes are equal. -/
def Twins (y y' : List Label) (r r' : Rule) : Prop :=
  r' = { r with act := r'.act } ∧ (r.act = r'.act ∨ ∃ v v', r.act = some v ∧ r'.act = some v' ∧ SameActive v y v' y')

/-- Creating an activation, and attributes which are not modelled, do not depend on the order of the points. -/
structure OrderFree (E : Env) : Prop where
  store : ∀ v v' : List Nat, v.Perm v' → E.store v = E.store v'
  extra : ∀ (r : Rule) (v v' : List Nat) (n : String), v.Perm v' → E.extra { r with act := some v } n = E.extra { r with act := some v' } n

/-- The same for rules with their classes -/
def TwinMembers (y y' : List Label) (m m' : Member) : Prop := m'.kind = m.kind ∧ Twins y y' m.rule m'.rule

/-- Columns with the same names and the activations of the same points -/
def SameColumns (y y' : List Label) (c c' : Vote.Columns Nat) : Prop := List.Forall₂ (fun p p' => p.1 = p'.1 ∧ SameActive p.2 y p'.2 y') c c'

/-- The two rules only differ by the order of the points in their activation vectors, whatever the targets. -/
def Alike (r r' : Rule) : Prop := r' = { r with act := r'.act } ∧ (r.act = r'.act ∨ ∃ v v', r.act = some v ∧ r'.act = some v' ∧ v.Perm v')

/-- A call of `fit` or `eval` with features -/
inductive DataCall where
  | fit (y : List Label) (xs : Xs) (force : Bool) (kw : Rule.Kw)
  | eval (y : List Label) (xs : Xs) (recompute force : Bool) (kw : Rule.Kw)

namespace DataCall

/-- What the call does to a rule -/
def run (E : Env) : DataCall → Py Rule Unit
  | fit y xs force kw => Rule.fit E y (some xs) force kw
  | eval y xs recompute force kw => Rule.eval E y (some xs) recompute force kw

/-- One call after the other, whether they raise or not: the outcomes and the rule -/
def runAll (E : Env) : List DataCall → Rule → List (Except Err Unit) × Rule
  | [], r => ([], r)
  | c :: rest, r => ((c.run E r).1 :: (runAll E rest (c.run E r).2).1, (runAll E rest (c.run E r).2).2)

/-- The same call with the points in another order -/
inductive Same : DataCall → DataCall → Prop
  | fit {y xs y' xs'} (h : SamePoints xs y xs' y') (force : Bool) (kw : Rule.Kw) : Same (.fit y xs force kw) (.fit y' xs' force kw)
  | eval {y xs y' xs'} (h : SamePoints xs y xs' y') (recompute force : Bool) (kw : Rule.Kw) :
      Same (.eval y xs recompute force kw) (.eval y' xs' recompute force kw)

end DataCall

end Verif.Spec
