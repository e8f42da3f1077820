import Verif.StackedFit

/-!
# Stacked activations as objects

In `RuleSet` the stacked activations of a ruleset are a value.  Here they are DataFrames in a heap, which rulesets refer to: `+=` of a ruleset
to one which has no stacked activations makes both refer to the same DataFrame (`/repo/ruleskit/ruleset.py` line 314), and `+=` of a rule
changes the DataFrame in place (line 317).  All other code makes new DataFrames.

Simplification: a call which leaves the columns as they are leaves the DataFrame, though the code may have made an equal one.
-/

namespace Verif

namespace FrameHeap

open Vote (Columns)

/-- A ruleset, with a reference to its stacked activations in place of their value -/
structure Obj where
  /-- everything but the stacked activations -/
  rest : RuleSet
  /-- `stacked_activations` -/
  frame : Option Nat

/-- All rulesets and all DataFrames -/
structure World where
  sets : List Obj
  frames : List (Columns Nat)

/-- The ruleset which an object shows -/
def shown (w : World) (o : Obj) : RuleSet := { o.rest with stacked := o.frame.bind fun k => w.frames[k]? }

/-- The ruleset which the object at place `i` shows -/
def view (w : World) (i : Nat) : Option RuleSet := (w.sets[i]?).map (shown w)

/-- The object at place `i` becomes the ruleset `s`; if its stacked activations are not the ones it had, they are a new DataFrame. -/
def place (w : World) (i : Nat) (o : Obj) (s : RuleSet) : World :=
  if s.stacked = (shown w o).stacked then { w with sets := w.sets.set i { rest := s, frame := o.frame } }
  else
    match s.stacked with
    | none => { w with sets := w.sets.set i { rest := s, frame := none } }
    | some c => { sets := w.sets.set i { rest := s, frame := some w.frames.length }, frames := w.frames ++ [c] }

/-- A new object which shows the ruleset `s` -/
def create (w : World) (s : RuleSet) : World :=
  match s.stacked with
  | none => { w with sets := w.sets ++ [{ rest := s, frame := none }] }
  | some c => { sets := w.sets ++ [{ rest := s, frame := some w.frames.length }], frames := w.frames ++ [c] }

/-- The object at place `i` becomes the ruleset `s`; the columns are written in the DataFrame which it has. -/
def write (w : World) (i : Nat) (o : Obj) (s : RuleSet) : World :=
  match o.frame, s.stacked with
  | some k, some c => { sets := w.sets.set i { rest := s, frame := some k }, frames := w.frames.set k c }
  | _, _ => place w i o s

/-- The object at place `i` becomes the ruleset `s`, and refers to the DataFrame of another ruleset if it had none. -/
def share (w : World) (i : Nat) (o : Obj) (other : Obj) (s : RuleSet) : World :=
  match o.frame with
  | some _ => place w i o s
  | none =>
    { w with sets := w.sets.set i { rest := s, frame := if s.stacked.isSome then other.frame else none } }

/-- What a program does -/
inductive Op where
  /-- A call which makes a new ruleset, which is `s` (the constructor, `+`, slices) -/
  | create (s : RuleSet)
  /-- `s += rule` -/
  | iaddRule (i : Nat) (m : Member)
  /-- `s.append(rule, update_activation)` -/
  | append (i : Nat) (m : Member) (update : Bool)
  /-- `s += other` -/
  | iaddSet (i j : Nat)
  /-- Any other call, which makes of the ruleset `s` the ruleset `f s` -/
  | change (i : Nat) (f : RuleSet → RuleSet)

/-- What it does to the rulesets and DataFrames.  `/repo/ruleskit/ruleset.py` lines 303-319 for the additions. -/
def step (R : RsEnv) (w : World) : Op → World
  | .create s => create w s
  | .iaddRule i m =>
    match w.sets[i]? with
    | none => w
    | some o => write w i o (RuleSet.iaddRule R m (shown w o)).2
  | .append i m u =>
    match w.sets[i]? with
    | none => w
    | some o => write w i o (RuleSet.append R m u (shown w o)).2
  | .iaddSet i j =>
    match w.sets[i]?, w.sets[j]? with
    | some o, some other => share w i o other (RuleSet.iaddSet R (shown w other) (shown w o)).2
    | _, _ => w
  | .change i f =>
    match w.sets[i]? with
    | none => w
    | some o => place w i o (f (shown w o))

end FrameHeap

end Verif
