import Verif.Rule

/-!
# Thresholds of classes and of single rules

Model of `SET_THRESHOLDS`, `set_thresholds`, `thresholds` and of the choice of the thresholds in `check_thresholds`,
`/repo/ruleskit/rule.py` lines 46, 64-70, 89, 111-146 and 227-229.

Simplification: the files of thresholds have been read, so that a setting is `None` or the limits of the file
(`Thresholds.__init__` is modelled in `Verif.Thresholds`).
-/

namespace Verif.Settings

open Thresholds (Limits)

/-- The classes of rules, numbered, and the class attribute `THRESHOLDS` in their dictionaries.  `mro c` is the order in which
Python searches the attributes of the class `c`: first `c`, then the classes it is derived from. -/
structure Classes where
  mro : Nat → List Nat
  table : Nat → Option (Option Limits)

/-- `cls.THRESHOLDS`.  Simplification: `None` when no class of the order has the attribute (`Rule` has it). -/
def inForce (K : Classes) (c : Nat) : Option Limits :=
  ((K.mro c).findSome? K.table).getD none

/-- `cls.SET_THRESHOLDS(path)`, lines 64-70 -/
def setClass (c : Nat) (t : Option Limits) (K : Classes) : Classes :=
  { K with table := fun d => if d = c then some t else K.table d }

/-- `SET_THRESHOLDS` several times. -/
def setAll : List (Nat × Option Limits) → Classes → Classes
  | [], K => K
  | (c, t) :: l, K => setAll l (setClass c t K)

/-- A rule, its class, and `_thresholds`. -/
structure SRule where
  cls : Nat
  own : Option Limits
  rule : Rule

/-- What the methods of a rule depend on: `THRESHOLDS` is looked up in the class of the rule each time. -/
def envOf (E : Env) (K : Classes) (s : SRule) : Env := { E with thresholds := inForce K s.cls }

/-- `__init__`, lines 72-110 -/
def create (E : Env) (K : Classes) (cls : Nat) (cond : Cond) (act : Option (List Nat)) : Except Err Unit × SRule :=
  let p := Rule.make { E with thresholds := inForce K cls } cond act
  (p.1, { cls, own := inForce K cls, rule := p.2 })

/-- The property `thresholds`, lines 227-229 -/
def SRule.thresholds (s : SRule) : Option Limits := s.own

/-- `rule.set_thresholds(path)`, lines 111-118.  For `None` an attribute which nothing reads is set on the thresholds of the
rule. -/
def setOwn (t : Option Limits) : Py SRule Unit := do
  let s ← Py.get
  match t, s.own with
  | some l, _ => Py.modify fun s => { s with own := some l }
  | none, some _ => pure ()
  | none, none => Py.throw .attributeError

/-- Run a method of rules which depends on the thresholds. -/
def method {α : Type} (E : Env) (K : Classes) (m : Env → Py Rule α) : Py SRule α := fun s =>
  let p := m (envOf E K s) s.rule
  (p.1, { s with rule := p.2 })

/-- `rule.check_thresholds()`, lines 120-146 -/
def checkThresholds (E : Env) (K : Classes) : Py SRule Unit := method E K Rule.checkAll

/-- `rule.fit(xs, y)`, see `Rule.fit` -/
def fit (E : Env) (K : Classes) (xs : Option Xs) (y : List Label) (force : Bool) (kw : Rule.Kw) : Py SRule Unit :=
  method E K fun E => Rule.fit E y xs force kw

end Verif.Settings
