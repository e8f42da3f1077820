import Verif.RuleSetFit
import Verif.VoteSpec
import Mathlib.Order.WithBot
import Mathlib.Data.List.Lex
import Mathlib.Data.String.Basic

/-!
# Vocabulary for rulesets
-/

namespace Verif.Spec

open Verif Vote

/-- One of the rules activates point `i`. -/
def coveredBy (rules : List Member) (i : Nat) : Bool :=
  rules.any fun m => match m.rule.act with
    | some v => v[i]? = some 1
    | none => false

/-- The rule has an activation of `n` points. -/
def HasPoints (n : Nat) (m : Member) : Prop := ∃ on : Nat → Bool, m.rule.act = some (vec n on)

/-- One column for each rule, in order: the text of its condition and its activation -/
def columnsOf (R : RsEnv) (rules : List Member) : Columns Nat :=
  rules.map fun m => (R.condStr m.rule.cond, m.rule.act.getD [])

/-- No two rules have the same condition text. -/
def DifferentTexts (R : RsEnv) (rules : List Member) : Prop := (rules.map fun m => R.condStr m.rule.cond).Nodup

/-- The text of a condition shows the names and the bounds of its features, not their indexes (as in
`/repo/ruleskit/condition.py` lines 342-350). -/
def TextIgnoresIndexes (R : RsEnv) : Prop := ∀ c idx, R.condStr { c with indexes := idx } = R.condStr c

/-- The rulesets, all with the setting `stack_activation = b`, which can be made from rules satisfying `P` by calls which do
not raise. -/
inductive Built (R : RsEnv) (P : Member → Prop) (b : Bool) : RuleSet → Prop where
  /-- `RuleSet(stack_activation=b)` -/
  | empty : Built R P b (RuleSet.blank b)
  /-- `RuleSet(rules, stack_activation=b)` -/
  | make {rules s} : (∀ m ∈ rules, P m) → RuleSet.make R rules true b = .ok s → Built R P b s
  /-- `s += rule` -/
  | iaddRule {s m s'} : Built R P b s → P m → RuleSet.iaddRule R m s = (.ok (), s') → Built R P b s'
  /-- `s.append(rule)` -/
  | append {s m s'} : Built R P b s → P m → RuleSet.append R m true s = (.ok (), s') → Built R P b s'
  /-- `s += other` -/
  | iaddSet {s o s'} : Built R P b s → Built R P b o → RuleSet.iaddSet R o s = (.ok (), s') → Built R P b s'
  /-- `s + rule` -/
  | addRule {s m s'} : Built R P b s → P m → RuleSet.addRule R s m = .ok s' → Built R P b s'
  /-- `s + other` -/
  | addSet {s o s'} : Built R P b s → Built R P b o → RuleSet.addSet R s o = .ok s' → Built R P b s'
  /-- `s.rules = rules` -/
  | setRules {s rules s'} : Built R P b s → (∀ m ∈ rules, P m) → RuleSet.setRules R rules s = (.ok (), s') → Built R P b s'
  /-- `s.sort(criterion, reverse)` -/
  | sort {s c rev s'} : Built R P b s → RuleSet.sort R c rev s = (.ok (), s') → Built R P b s'

/-! ## Order -/

/-- A number which is not NaN as an element of the extended line -/
def value : Num → WithBot (WithTop Rat)
  | .ninf => ⊥
  | .fin q => ((q : WithTop Rat) : WithBot (WithTop Rat))
  | .inf => ((⊤ : WithTop Rat) : WithBot (WithTop Rat))
  | .nan => ⊥

/-- The lower bounds of a rule followed by its upper bounds -/
def boundsOf (m : Member) : List Num := m.rule.cond.bmins.getD [] ++ m.rule.cond.bmaxs.getD []

/-- None of the bounds of a rule is NaN. -/
def NumericBounds (m : Member) : Prop := ∀ x ∈ boundsOf m, x ≠ .nan

/-- Number of features of a rule -/
def featureNumber (byName : Bool) (m : Member) : Nat :=
  if byName then (m.rule.cond.names.getD []).length else (m.rule.cond.indexes.getD []).length

/-- The text of the features of a rule -/
def featureText (R : RsEnv) (byName : Bool) (m : Member) : String :=
  if byName then R.strNames m.rule.cond.names else R.strIndexes m.rule.cond.indexes

/-- Where a text ends can be told from the text: texts which agree up to a continuation are texts of the same thing.  The text
of a Python list of numbers or of texts is of this kind, as is `None`. -/
def SelfDelimiting {α : Type} (f : α → String) : Prop := ∀ a b x y, f a ++ x = f b ++ y → a = b ∧ x = y

/-- The texts of lists of names, of indexes and of bounds are of this kind. -/
def TextsTellApart (R : RsEnv) : Prop :=
  SelfDelimiting R.strNames ∧ SelfDelimiting R.strIndexes ∧ SelfDelimiting R.strBounds

/-- `a` may come before `b`: fewer features, or as many and a text which comes before (after, in reverse), or the same features and
bounds which are not greater in lexicographic order. -/
def MayPrecede (R : RsEnv) (byName reverse : Bool) (a b : Member) : Prop :=
  featureNumber byName a < featureNumber byName b ∨ featureNumber byName a = featureNumber byName b ∧
    ((if reverse then featureText R byName b < featureText R byName a else featureText R byName a < featureText R byName b) ∨
      featureText R byName a = featureText R byName b ∧ ¬ (boundsOf b).map value < (boundsOf a).map value)

/-- A rule with features and bounds -/
def Sortable (byName : Bool) (m : Member) : Prop :=
  0 < featureNumber byName m ∧ m.rule.cond.bmins ≠ none ∧ m.rule.cond.bmaxs ≠ none

/-- This attribute of the rule is the number `x`. -/
def HasNumber (R : RsEnv) (a : String) (m : Member) (x : Num) : Prop := m.rule.getattr (R.ofKind m.kind) a = .ok (.num x)

/-- This attribute of the rule is the text `t`. -/
def HasText (R : RsEnv) (a : String) (m : Member) (t : String) : Prop := m.rule.getattr (R.ofKind m.kind) a = .ok (.str t)

/-- The same features and the same bounds -/
def SameSortKey (R : RsEnv) (byName : Bool) (a b : Member) : Prop :=
  featureText R byName a = featureText R byName b ∧ boundsOf a = boundsOf b

/-! ## Fit and eval -/

/-- `l'` is the list of the rules of `l` after the call `f` on each of them, which did not raise. -/
def EachDone (R : RsEnv) (f : Env → Py Rule Unit) (l l' : List Member) : Prop :=
  List.Forall₂ (fun m m' => m'.kind = m.kind ∧ f (R.ofKind m.kind) m.rule = (.ok (), m'.rule)) l l'

/-- The rule is good and no bad rule of the list is equal to it. -/
def Stays (H : Cond.Hasher) (l : List Member) (m : Member) : Prop :=
  m.rule.good = true ∧ ∀ d ∈ l, d.rule.good = false → Cond.eq H m.rule.cond d.rule.cond ≠ .ok true

/-- No two rules of the list are equal. -/
def DifferentRules (H : Cond.Hasher) (l : List Member) : Prop :=
  l.Pairwise fun a b => Cond.eq H a.rule.cond b.rule.cond ≠ .ok true

/-- The same rule with perhaps another activation -/
def SameButActivation (m m' : Member) : Prop := m'.kind = m.kind ∧ m'.rule = { m.rule with act := m'.rule.act }

end Verif.Spec
