import Verif.Py
import Verif.Num
import Verif.Condition

/-!
# Thresholds

Model of `/repo/ruleskit/thresholds.py`.
-/

namespace Verif.Thresholds

open Verif

/-- A Python dictionary with text keys. -/
abbrev Dict (α : Type) := List (String × α)

/-- `d.get(k)` -/
def Dict.get? {α} (d : Dict α) (k : String) : Option α := (d.find? fun p => p.1 == k).map (·.2)

/-- `d[k] = v` -/
def Dict.set {α} (d : Dict α) (k : String) (v : α) : Dict α :=
  if d.any (fun p => p.1 == k) then d.map fun p => if p.1 == k then (k, v) else p else d ++ [(k, v)]

/-- What can be written for a limit in the json file: a number (or a boolean), the name of an attribute of the rule,
something else. -/
inductive Lim where
  | num (x : Num)
  | str (s : String)
  | other
  deriving DecidableEq, Repr

/-- The attribute `limits`: for each attribute of a rule, its limits.  Simplification: a value of the json file which is not
a dictionary of dictionaries is not modelled. -/
abbrev Limits := Dict (Dict Lim)

/-- The value of an attribute of a rule. -/
inductive Attr where
  | none
  | callable
  | num (x : Num)
  | str (s : String)
  | other
  deriving DecidableEq, Repr

/-- The float written `0.05` -/
def fivePercent : Num := .fin (1 / 20)

/-- `Thresholds.__init__`, `/repo/ruleskit/thresholds.py` lines 26-57; the argument is the content of the file, `none` when
there is no such file. -/
def make : Option Limits → Limits
  | none => []
  | some l =>
    match Dict.get? l "coverage" with
    | none => Dict.set l "coverage" [("min", .num fivePercent)]
    | some c =>
      match Dict.get? c "min" with
      | none => Dict.set l "coverage" (Dict.set c "min" (.num fivePercent))
      | some _ => l

/-- The mathematical functions of Python, and conversions to and from texts, which are not computed in this model. -/
structure Math where
  sqrt : Num → Except Err Num
  exp : Num → Except Err Num
  log : Num → Except Err Num
  str : Attr → String
  /-- `int(text)` -/
  intOfStr : String → Except Err Num

/-- `KWOWN_ARGS[name](value)`, `/repo/ruleskit/thresholds.py` lines 22, 71-73 -/
def applyArg (M : Math) (name : String) (value : Attr) : Except Err Attr :=
  if name = "abs" then
    match value with
    | .num x => .ok (.num x.abs)
    | _ => .error .typeError
  else if name = "sqrt" then
    match value with
    | .num x => (M.sqrt x).map .num
    | _ => .error .typeError
  else if name = "exp" then
    match value with
    | .num x => (M.exp x).map .num
    | _ => .error .typeError
  else if name = "log" then
    match value with
    | .num x => (M.log x).map .num
    | _ => .error .typeError
  else if name = "str" then .ok (.str (M.str value))
  else if name = "int" then
    match value with
    | .num x => (Cond.toInt x).map .num
    | .str s => (M.intOfStr s).map .num
    | _ => .error .typeError
  else .error .valueError

/-- One step of the loop of `/repo/ruleskit/thresholds.py` lines 76-82: a limit given as a text is the value of this
attribute of the rule. -/
def resolve (getattr : String → Except Err Attr) : Lim → Except Err Num
  | .num x => .ok x
  | .str s => do
    match ← getattr s with
    | .num x => .ok x
    | _ => .error .typeError
  | .other => .error .typeError

/-- The loop of lines 76-82 on a copy of the limits (line 68: `copy(self.limits[tkey])`): a dictionary of numbers, without
"arg". -/
def resolveAll (getattr : String → Except Err Attr) : Dict Lim → Except Err (Dict Num)
  | [] => .ok []
  | (k, l) :: rest =>
    if k = "arg" then resolveAll getattr rest
    else do
      let x ← resolve getattr l
      let r ← resolveAll getattr rest
      .ok ((k, x) :: r)

/-- `value < x`; texts and other objects are not comparable with numbers. -/
def Attr.lt : Attr → Num → Except Err Bool
  | .num v, x => .ok (v.lt x)
  | _, _ => .error .typeError

/-- `value > x` -/
def Attr.gt : Attr → Num → Except Err Bool
  | .num v, x => .ok (x.lt v)
  | _, _ => .error .typeError

/-- `value == x` -/
def Attr.eqNum : Attr → Num → Bool
  | .num v, x => v.beq x
  | _, _ => false

/-- `name in threshold and f(threshold[name])` -/
def test (t : Dict Num) (name : String) (f : Num → Except Err Bool) : Except Err Bool :=
  match Dict.get? t name with
  | some m => f m
  | none => .ok false

/-- The comparisons of `/repo/ruleskit/thresholds.py` lines 84-96 -/
def verdict (value : Attr) (t : Dict Num) : Except Err Bool := do
  if ← test t "min" value.lt then .ok false
  else if ← test t "max" value.gt then .ok false
  else if ← test t "equal" (fun e => .ok !(value.eqNum e)) then .ok false
  else if ← test t "different" (fun d => .ok (value.eqNum d)) then .ok false
  else .ok true

/-- The value to compare, lines 70-74.  Simplification: a list or a dictionary under "arg", which raises `TypeError` since it can not be
hashed, raises `ValueError` here. -/
def measured (M : Math) (threshold : Dict Lim) (value : Attr) : Except Err Attr :=
  match Dict.get? threshold "arg" with
  | none => .ok value
  | some (.str name) => applyArg M name value
  | some _ => .error .valueError

/-- `Thresholds.__call__`, `/repo/ruleskit/thresholds.py` lines 59-96.  The state is `self.limits`. -/
def call (M : Math) (getattr : String → Except Err Attr) (tkey : String) : Py Limits Bool := do
  let limits ← Py.get
  match Dict.get? limits tkey with
  | none => pure true
  | some threshold => do
    let value ← Py.ofExcept (getattr tkey)
    if value = .callable ∨ value = .none then pure true
    else do
      let value ← Py.ofExcept (measured M threshold value)
      let threshold ← Py.ofExcept (resolveAll getattr threshold)
      Py.ofExcept (verdict value threshold)

end Verif.Thresholds
