import Verif.Heap
import Verif.Num

/-!
# Rules and their activation objects

The methods of `Rule` (`/repo/ruleskit/rule.py`) which depend on what the `Activation` object of the rule is, and not only on
its vector: asking whether the activation is available, deleting it, `in`, and `get_correlation`.

A rule is here its number of features, its activation object (a number in the heap of `Heap.lean`) and its prediction.
-/

namespace Verif.RuleHeap

open Verif Verif.Activation

/-- The prediction of a rule: `None`, a text, or a number, which is numpy's (computed) or Python's (read from a file). -/
inductive Prediction where
  | none
  | text
  | number (x : Num) (numpy : Bool)
  deriving DecidableEq

/-- A rule, the attributes of `/repo/ruleskit/rule.py` lines 72-110 used here -/
structure HRule where
  /-- `len(rule)`, lines 313-315: the number of features of its condition -/
  features : Nat
  act : Option Nat
  prediction : Prediction

/-- The truth value of an activation object, or of `None`: by `__len__`, `/repo/ruleskit/activation.py` lines 754-756. -/
def truthy (a : Option Nat) : Py Heap Bool :=
  match a with
  | none => pure false
  | some i => do
    let o ← look i
    match o.length with
    | none => Py.throw .typeError
    | some n => pure (decide (n ≠ 0))

/-- `activation_available`, `/repo/ruleskit/rule.py` lines 167-175 -/
def available (r : HRule) : Py Heap Bool :=
  match r.act with
  | none => pure false
  | some i => do
    let o ← look i
    let h ← Py.get
    match o.data with
    | .file p => pure (h.w.files p).isSome
    | .deleted _ => pure false
    | _ => pure true

/-- `activation`, lines 210-221.  As in `raw`, a deleted activation which was stored as it is gives `TypeError` here; the code
returns `None` then. -/
def activation (r : HRule) : Py Heap (Option Codec.Arr) := do
  if ← truthy r.act then
    match r.act with
    | some i => do
      let v ← onObj i raw
      pure (some v)
    | none => pure none
  else pure none

/-- `coverage` of the rule while it has an activation, lines 177-182 -/
def coverage (r : HRule) : Py Heap (Option Frac) :=
  match r.act with
  | none => pure none
  | some i => do
    let c ← onObj i Activation.coverage
    pure (some c)

/-- `del_activation`, lines 161-165 -/
def delActivation (r : HRule) : Py Heap Unit :=
  match r.act with
  | none => pure ()
  | some i => onObj i delete

/-- `other in self`, lines 289-296 -/
def contains (self other : HRule) : Py Heap Bool := do
  if !(← truthy self.act) then pure false
  else if !(← truthy other.act) then pure false
  else
    match self.act, other.act with
    | some i, some j => Activation.contains i j
    | _, _ => pure false

/-- `prediction / abs(prediction)`: Python's zero raises, numpy's gives NaN. -/
def signOf : Prediction → Except Err Num
  | .none | .text => .error .typeError
  | .number (.fin q) numpy =>
    if q = 0 then (if numpy then .ok .nan else .error .zeroDivisionError)
    else .ok (.fin (if q < 0 then -1 else 1))
  | .number _ _ => .ok .nan

/-- `get_correlation`, lines 523-533: `len` of a rule is the number of its features. -/
def correlation (self other : HRule) : Py Heap Num := do
  if self.features ≠ other.features then Py.throw .valueError
  else do
    let s ← Py.ofExcept (signOf self.prediction)
    let t ← Py.ofExcept (signOf other.prediction)
    match self.act, other.act with
    | none, _ => Py.throw .attributeError
    | some _, none => Py.throw .typeError
    | some i, some j => do
      let f ← Activation.correlation i j
      pure ((Num.fin ((f.num : Rat) / f.den)).mul (s.mul t))

end Verif.RuleHeap
