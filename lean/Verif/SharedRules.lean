import Verif.RuleSetFit

/-!
# Rules as objects

In `RuleSet` the rules of a ruleset are values.  Here they are objects in a heap, which rulesets refer to: slices, `+`, `+=`, `append` and the
constructor put the given rule objects in the new list (`/repo/ruleskit/ruleset.py` lines 107, 132, 141, 158, 161, 187), and `fit` works on the
objects.

Simplifications: stacked activations and conditions are values here (see `FrameHeap` and `CondHeap`); `STACKED_FIT` is `False`.
-/

namespace Verif

namespace SharedRules

open RuleSet (onRule badRules isDropped)

/-- A ruleset, with references to its rules in place of their values -/
structure Obj where
  /-- everything but the rules -/
  rest : RuleSet
  /-- `_rules` -/
  refs : List Nat

/-- All rules and all rulesets -/
structure World where
  rules : List Member
  sets : List Obj

/-- The rules which are referred to -/
def membersOf (rules : List Member) (refs : List Nat) : List Member := refs.filterMap fun k => rules[k]?

/-- The ruleset which an object shows -/
def shown (rules : List Member) (o : Obj) : RuleSet := { o.rest with rules := membersOf rules o.refs }

/-- The ruleset which the object at place `i` shows -/
def view (w : World) (i : Nat) : Option RuleSet := (w.sets[i]?).map (shown w.rules)

/-- The rule objects of the ruleset at place `i` -/
def held (w : World) (i : Nat) : List Nat := ((w.sets[i]?).map (·.refs)).getD []

/-- Run the code of the rule object `k` -/
def onRef (R : RsEnv) (f : Env → Py Rule Unit) (k : Nat) : Py (List Member) Unit := fun rules =>
  match rules[k]? with
  | none => (.ok (), rules)
  | some m =>
    let p := onRule R f m
    (p.1, rules.set k p.2)

/-- `[f(r) for r in self]`, `/repo/ruleskit/ruleset.py` line 434: one rule after the other, until one raises -/
def eachRef (R : RsEnv) (f : Env → Py Rule Unit) : List Nat → Py (List Member) Unit
  | [] => pure ()
  | k :: rest => do
    onRef R f k
    eachRef R f rest

/-- `[r for r in self.rules if r not in to_drop]`, line 438: the objects -/
def keptRefs (H : Cond.Hasher) (drops : List (Member × Nat)) : List ((Member × Nat) × Nat) → Except Err (List Nat)
  | [] => .ok []
  | m :: rest => do
    let b ← isDropped H drops m.1
    let l ← keptRefs H drops rest
    .ok (if b then l else m.2 :: l)

/-- The rule objects of a ruleset after `fit`, lines 435-444: `s` is the ruleset after its rules have been fitted, and `s'` after the bad ones
have been dropped. When `append` raises, the following rules are not in the ruleset. -/
def refsAfter (R : RsEnv) (refs : List Nat) (s s' : RuleSet) : List Nat :=
  if (badRules s.rules).length > 0 then
    match keptRefs R.hasher (badRules s.rules) (s.rules.zipIdx.zip refs) with
    | .error _ => refs
    | .ok l => l.take s'.rules.length
  else refs

/-- `fit` returns at once: there are no points, no rules, or nothing to fit; lines 366-377. -/
def nothingToFit (xs : Option Xs) (s : RuleSet) : Bool :=
  xs.any (fun x => x.length = 0) || decide (s.rules.length = 0) || (s.rules.all (fun m => m.rule.fitted) && xs.isNone)

/-- Lines 435-462: after the rules have been fitted -/
def finishFit (R : RsEnv) (y : List Label) (given : Bool) (rules : List Member) (i : Nat) (o : Obj) : Py World (List Member) := fun w =>
  let s := shown rules o
  let p := (RuleSet.afterFit R (badRules s.rules) given >>= fun _ => RuleSet.calcTrainSetSize y) s
  (p.1.map fun _ => (badRules s.rules).map (·.1),
    { rules := rules, sets := w.sets.set i { rest := p.2, refs := refsAfter R o.refs s p.2 } })

/-- `fit` of the ruleset at place `i`, `/repo/ruleskit/ruleset.py` lines 331-470, when `STACKED_FIT` is `False` -/
def fit (R : RsEnv) (y : List Label) (xs : Option Xs) (force : Bool) (kw : Rule.Kw) (i : Nat) : Py World (List Member) := fun w =>
  match w.sets[i]? with
  | none => (.error .keyError, w)
  | some o =>
    if o.rest.ruleType = none then (.error .valueError, w)
    else if kw.hasMethod then (.error .indexError, w)
    else if nothingToFit xs (shown w.rules o) then (.ok [], w)
    else
      match eachRef R (fun E => Rule.fit E y xs force kw) o.refs w.rules with
      | (.error e, rules) => (.error e, { w with rules := rules })
      | (.ok _, rules) => finishFit R y xs.isSome rules i o w

/-- A call on a rule object -/
def call (R : RsEnv) (f : Env → Py Rule Unit) (k : Nat) : Py World Unit := fun w =>
  let p := onRef R f k w.rules
  (p.1, { w with rules := p.2 })

/-- `s += rule`, lines 120-149 -/
def iaddRule (R : RsEnv) (i k : Nat) : Py World Unit := fun w =>
  match w.sets[i]?, w.rules[k]? with
  | some o, some m =>
    let p := RuleSet.iaddRule R m (shown w.rules o)
    (p.1, { w with sets := w.sets.set i { rest := p.2, refs := (o.refs ++ [k]).take p.2.rules.length } })
  | _, _ => (.error .keyError, w)

/-- `s += other`, same lines -/
def iaddSet (R : RsEnv) (i j : Nat) : Py World Unit := fun w =>
  match w.sets[i]?, w.sets[j]? with
  | some o, some other =>
    let p := RuleSet.iaddSet R (shown w.rules other) (shown w.rules o)
    (p.1, { w with sets := w.sets.set i { rest := p.2, refs := (o.refs ++ other.refs).take p.2.rules.length } })
  | _, _ => (.error .keyError, w)

/-- `RuleSet([...], compute, stack)`, lines 69-117, which is also what slices (line 187) and `+` (line 162) do.  The indexes of the conditions of
the rules can be changed (`set_features_indexes`, lines 321-326). -/
def make (R : RsEnv) (refs : List Nat) (compute stack : Bool) : Py World Unit := fun w =>
  let p := RuleSet.init R (membersOf w.rules refs) compute (RuleSet.blank stack)
  let rules := (refs.zip p.2.rules).foldl (fun l q => l.set q.1 q.2) w.rules
  match p.1 with
  | .error e => (.error e, { w with rules := rules })
  | .ok _ => (.ok (), { rules := rules, sets := w.sets ++ [{ rest := p.2, refs := refs }] })

end SharedRules

end Verif
