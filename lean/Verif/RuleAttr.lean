import Verif.Condition

/-!
# Attributes of rules

Model of `Rule.__getattr__` and `Rule.__setattr__`, `/repo/ruleskit/rule.py` lines 254-280, with the search of Python for
attributes: properties of the class, then the dictionary of the object, then other attributes of the class, then `__getattr__`.

Simplifications: getters do not raise; the value of a property is kept under the name of the property, and its setter replaces it.
-/

namespace Verif.RuleAttr

open Verif

/-- Values of attributes; those of conditions are modelled, the others are numbered. -/
inductive Val where
  | indexes (l : Option (List Int))
  | bounds (l : Option (List Num))
  | names (l : Option (List String))
  | flag (b : Bool)
  | thing (n : Nat)
  deriving DecidableEq

/-- What a class knows of a name: a property, with or without setter, or anything else (methods, constants). -/
inductive ClassAttr where
  | property (settable : Bool)
  | plain (v : Val)

/-- A rule: its condition, the public attributes of its activation, the values behind its properties, its dictionary. -/
structure Obj where
  cond : Option Cond
  act : Option (List (String × Val))
  props : String → Val
  own : List (String × Val)

/-- `getattr(condition, item)`, the properties of `/repo/ruleskit/condition.py` lines 61-63 and 291-305 and `impossible`;
methods are numbered. -/
def condGet (c : Cond) : String → Option Val
  | "features_indexes" => some (.indexes c.indexes)
  | "bmins" => some (.bounds c.bmins)
  | "bmaxs" => some (.bounds c.bmaxs)
  | "features_names" => some (.names c.names)
  | "impossible" => some (.flag c.impossible)
  | "evaluate" => some (.thing 0)
  | "sort" => some (.thing 1)
  | "getattr" => some (.thing 2)
  | "normalize_features_indexes" => some (.thing 3)
  | _ => none

/-- `setattr(condition, item, value)`: through the setters for the four lists; values of another type than the attribute are
not modelled and raise. -/
def condSet (c : Cond) (item : String) (v : Val) : Except Err Cond :=
  let run (m : Py Cond Unit) : Except Err Cond := match m c with
    | (.ok _, d) => .ok d
    | (.error e, _) => .error e
  match item, v with
  | "features_indexes", .indexes (some l) => run (Cond.setIndexes (.list l))
  | "features_names", .names (some l) => run (Cond.setNames (.list l))
  | "bmins", .bounds (some l) => run (Cond.setBmins (.list l))
  | "bmaxs", .bounds (some l) => run (Cond.setBmaxs (.list l))
  | "impossible", .flag b => .ok { c with impossible := b }
  | _, _ => .error .typeError

/-- `__getattr__`, `/repo/ruleskit/rule.py` lines 254-263: the attribute of the activation, else of the condition. -/
def forward (r : Obj) (item : String) : Option Val :=
  match r.act.bind fun a => a.lookup item with
  | some v => some v
  | none => r.cond.bind fun c => condGet c item

/-- `rule.item`; `none` when `AttributeError` is raised. -/
def getAttr (K : String → Option ClassAttr) (r : Obj) (item : String) : Option Val :=
  match K item with
  | some (.property _) => some (r.props item)
  | k =>
    match r.own.lookup item with
    | some v => some v
    | none =>
      match k with
      | some (.plain v) => some v
      | _ => forward r item

/-- Replace or add an entry of a dictionary. -/
def put (l : List (String × Val)) (item : String) (v : Val) : List (String × Val) :=
  (item, v) :: l.filter fun p => p.1 ≠ item

/-- `object.__setattr__(rule, item, value)` -/
def objectSet (K : String → Option ClassAttr) (r : Obj) (item : String) (v : Val) : Except Err Obj :=
  match K item with
  | some (.property true) => .ok { r with props := fun i => if i = item then v else r.props i }
  | some (.property false) => .error .attributeError
  | _ => .ok { r with own := put r.own item v }

/-- `rule.item = value` for a public name, `/repo/ruleskit/rule.py` lines 265-280.  `hasattr(self, item)` asks `__getattr__`
too. -/
def setAttr (K : String → Option ClassAttr) (r : Obj) (item : String) (v : Val) : Except Err Obj :=
  if (getAttr K r item).isNone then
    match r.act.bind fun a => a.lookup item, r.act with
    | some _, some a => .ok { r with act := some (put a item v) }
    | _, _ =>
      match r.cond with
      | some c =>
        if (condGet c item).isSome then do
          let d ← condSet c item v
          .ok { r with cond := some d }
        else .error .attributeError
      | none => .error .attributeError
  else objectSet K r item v

/-- The attributes of `RegressionRule` (a selection of its methods). -/
def regression : String → Option ClassAttr
  | "coverage" | "train_set_size" | "test_set_size" => some (.property true)
  | "activation_available" | "condition" | "activation" | "prediction" | "thresholds" | "good" | "bad_because" | "time_fit"
  | "time_predict" | "time_calc_activation" | "to_hash" | "std" | "sign" | "criterion" | "zscore" => some (.property false)
  | "LOCAL_ACTIVATION" => some (.plain (.flag true))
  | "fit" | "eval" | "predict" | "index" => some (.plain (.thing 4))
  | _ => none

end Verif.RuleAttr
