import Verif.PyText
import Verif.Condition

/-!
# Texts of conditions and of rulesets

`str` of a condition, `/repo/ruleskit/condition.py` lines 342-350, which names the columns of stacked activations and the weights of rules
(`/repo/ruleskit/ruleset.py` lines 303-319, 797-806), and `str` of a ruleset, `/repo/ruleskit/ruleset.py` lines 190-198.

Simplifications: bounds are floats (`1` and `1.0`, which are equal, have different texts in Python); the texts of rules are given when the text
of a ruleset is made.
-/

namespace Verif

namespace PyText

/-- `f"{name} in [{bmin}, {bmax}]"`, `/repo/ruleskit/condition.py` lines 345 and 349 -/
def interval (F : Floats) (name : String) (lo hi : Num) : List Char :=
  name.toList ++ ' ' :: 'i' :: 'n' :: ' ' :: '[' :: (num F lo ++ ',' :: ' ' :: (num F hi ++ [']']))

/-- `l[i]`, where `l` can be `None` -/
def boundAt (l : Option (List Num)) (i : Nat) : Except Err Num :=
  match l with
  | none => .error .typeError
  | some l =>
    match l[i]? with
    | none => .error .indexError
    | some x => .ok x

/-- The text about the feature `i`, whose name is given; same lines -/
def intervalAt (F : Floats) (c : Cond) (p : String × Nat) : Except Err (List Char) := do
  let lo ← boundAt c.bmins p.2
  let hi ← boundAt c.bmaxs p.2
  .ok (interval F p.1 lo hi)

/-- `str` of a condition, `/repo/ruleskit/condition.py` lines 342-350 -/
def condition (F : Floats) (c : Cond) : Except Err (List Char) :=
  match c.names with
  | none => .ok ['e', 'm', 'p', 't', 'y', ' ', 'c', 'o', 'n', 'd', 'i', 't', 'i', 'o', 'n']
  | some [] => .error .indexError
  | some (n :: ns) => do
    let first ← intervalAt F c (n, 0)
    let rest ← (ns.zipIdx 1).mapM (intervalAt F c)
    .ok (first ++ rest.flatMap fun t => ' ' :: 'A' :: 'N' :: 'D' :: ' ' :: t)

/-- `"\n".join(l)` -/
def joinLines (l : List (List Char)) : List Char := ['\n'].intercalate l

/-- `str` of a ruleset whose rules have the texts `l`, `/repo/ruleskit/ruleset.py` lines 190-198; `k` is `NLINES`. -/
def ruleset (k : Nat) (l : List (List Char)) : List Char :=
  if l.length < 2 * k then joinLines ((List.range l.length).filterMap fun i => l[i]?)
  else
    joinLines (((List.range k).filterMap fun i => l[i]?) ++ [['.', '.', '.']] ++
      (List.range' (l.length - k) k).filterMap fun i => l[i]?)

end PyText

end Verif
