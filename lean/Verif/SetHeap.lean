import Verif.RuleHeap

/-!
# Rulesets and the activation objects of their rules

The methods of `RuleSet` (`/repo/ruleskit/ruleset.py`) which make, change or delete activation objects.  In `RuleSet.lean`
the activation of a ruleset is only its vector; here it is an object of the heap of `Heap.lean`, as are those of the rules.

A rule is as in `RuleHeap.lean`.  Simplification: of the stacked activations only whether they are there is kept.
-/

namespace Verif.SetHeap

open Verif Verif.Activation Verif.RuleHeap

/-- A ruleset, the attributes of lines 88-101 used here -/
structure HSet where
  /-- `_rules` -/
  rules : List HRule
  /-- `_activation` -/
  act : Option Nat
  /-- `_coverage` -/
  coverage : Option Frac
  /-- whether `stacked_activations` is not `None` -/
  stacked : Bool

/-- A ruleset and all activations of the program. -/
structure State where
  s : HSet
  h : Heap

/-- Do something with activations. -/
def onHeap {α : Type} (m : Py Heap α) : Py State α := fun st =>
  let p := m st.h
  (p.1, { st with h := p.2 })

/-- `try: m except MemoryError: f` -/
def orPairs (m f : Py Heap Nat) : Py Heap Nat := fun h =>
  match m h with
  | (.error .memoryError, h') => f h'
  | p => p

/-- `act = act | a` for each `a`, lines 786-787 -/
def unionPairs (i : Nat) : List Nat → Py Heap Nat
  | [] => pure i
  | j :: rest => do
    let k ← binop .or i j
    unionPairs k rest

/-- `all([r.activation_available for r in self])`; the list is made first. -/
def allAvailable : List HRule → Py Heap Bool
  | [] => pure true
  | r :: rest => do
    let b ← available r
    let c ← allAvailable rest
    pure (b && c)

/-- `evaluate_self_activation()`, lines 757-790, without features -/
def evaluateSelf (mem : Mem) (rules : List HRule) : Py Heap (Option Nat) :=
  match rules with
  | [] => do
    let n ← new (.arr []) true none true false
    pure (some n)
  | rules => do
    if ← allAvailable rules then
      match rules.filterMap (·.act) with
      | [] => pure none
      | [i] => do
        let v ← onObj i raw
        let a ← look i
        let n ← new (.arr v) a.optimize none a.toFile false
        pure (some n)
      | i :: ids => do
        let n ← orPairs (multi false mem (i :: ids)) (unionPairs i ids)
        pure (some n)
    else pure none

/-- `compute_self_activation()`, lines 792-795 -/
def computeSelf (mem : Mem) : Py State Unit := do
  let st ← Py.get
  let a ← onHeap (evaluateSelf mem st.s.rules)
  Py.modify fun st => { st with s := { st.s with act := a } }

/-- `self._activation is None or self._activation.length == 0` -/
def missing (act : Option Nat) : Py Heap Bool :=
  match act with
  | none => pure true
  | some i => do
    let o ← look i
    pure (decide (o.length = some 0))

/-- `_update_activation(rule)`, lines 294-300; `toFile` is `Rule.LOCAL_ACTIVATION`. -/
def updateActivation (toFile : Bool) (r : HRule) : Py State Unit := do
  let st ← Py.get
  if ← onHeap (available r) then
    if ← onHeap (missing st.s.act) then
      match ← onHeap (RuleHeap.activation r) with
      | none => Py.throw .typeError
      | some v => do
        let n ← onHeap (new (.arr v) true none toFile false)
        Py.modify fun st => { st with s := { st.s with act := some n } }
    else
      match st.s.act, r.act with
      | some i, some j => do
        let n ← onHeap (binop .or i j)
        Py.modify fun st => { st with s := { st.s with act := some n } }
      | _, _ => Py.throw .attributeError

/-- `append(rule)`, lines 682-696, of a rule of the right type: `_rules.append` comes first (line 135). -/
def append (toFile : Bool) (r : HRule) : Py State Unit := do
  Py.modify fun st => { st with s := { st.s with rules := st.s.rules ++ [r] } }
  updateActivation toFile r

/-- `if self._activation is not None: self._activation.clear()`, as in `fit` and `eval`, lines 643-644 -/
def clearOwn : Py State Unit := do
  let st ← Py.get
  match st.s.act with
  | none => pure ()
  | some i => onHeap (onObj i clear)

/-- `del_activation`, lines 817-821 -/
def delActivation : Py State Unit := do
  let st ← Py.get
  match st.s.act with
  | none => pure ()
  | some i => onHeap (onObj i delete)

/-- The loop of `del_activations`, lines 812-815 -/
def delEach : List HRule → Py Heap Unit
  | [] => pure ()
  | r :: rest => do
    RuleHeap.delActivation r
    delEach rest

/-- `del_activations` -/
def delActivations : Py State Unit := do
  let st ← Py.get
  onHeap (delEach st.s.rules)

/-- `del_stacked_activations`, lines 823-827 -/
def delStacked : Py State Unit := Py.modify fun st => { st with s := { st.s with stacked := false } }

/-- `activation_available`, lines 255-263 -/
def setAvailable : Py State Bool := do
  let st ← Py.get
  match st.s.act with
  | none => pure false
  | some i => do
    let o ← onHeap (look i)
    if o.length = some 0 then pure false
    else
      match o.data with
      | .file p => pure (st.h.w.files p).isSome
      | .deleted _ => pure false
      | _ => pure true

/-- `stacked_activations_available`, lines 265-270: it tests `stack_activation`, which is a Boolean and never `None`, and the
length of the activation of the ruleset. -/
def stackedAvailable : Py State Bool := do
  let st ← Py.get
  match st.s.act with
  | none => Py.throw .attributeError
  | some i => do
    let o ← onHeap (look i)
    pure (decide (o.length ≠ some 0))

/-- `activation`, lines 272-283.  See `RuleHeap.activation`. -/
def setActivation : Py State (Option Codec.Arr) := do
  let st ← Py.get
  if ← onHeap (truthy st.s.act) then
    match st.s.act with
    | some i => do
      let v ← onHeap (onObj i raw)
      pure (some v)
    | none => pure none
  else pure none

/-- `ruleset_coverage`, lines 285-291 -/
def setCoverage : Py State (Option Frac) := do
  if ← setAvailable then do
    let st ← Py.get
    match st.s.act with
    | some i => do
      let c ← onHeap (onObj i Activation.coverage)
      pure (some c)
    | none => pure none
  else do
    let st ← Py.get
    pure st.s.coverage

/-- What a program does with a ruleset, one thing after the other, whether or not the calls raise. -/
inductive SetOp where
  | compute (mem : Mem)
  | append (toFile : Bool) (r : HRule)
  | clear

/-- One call. -/
def SetOp.run : SetOp → Py State Unit
  | .compute mem => computeSelf mem
  | .append toFile r => SetHeap.append toFile r
  | .clear => clearOwn

/-- A program. -/
def runOps : List SetOp → State → State
  | [], st => st
  | op :: rest, st => runOps rest (op.run st).2

end Verif.SetHeap
