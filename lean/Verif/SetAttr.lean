import Verif.SetHeap
import Verif.History

/-!
# Attributes which a ruleset takes from its activation

Model of `RuleSet.__getattr__`, `/repo/ruleskit/ruleset.py` lines 162-169, which Python calls for names which a ruleset does not have.
The names modelled are `length` and the properties of `Activation` in `Activation.Read`, none of which is a name of `RuleSet`.
-/

namespace Verif.SetHeap

open Verif Verif.Activation

/-- A name which is found in the activation only -/
inductive Item where
  /-- the attribute `length`, set by `Activation.__init__` -/
  | length
  /-- a property of `Activation` -/
  | read (r : Read)

/-- `getattr(self._activation, item)` -/
def actGet (i : Nat) : Item → Py Heap Out
  | .length => do
    let a ← look i
    match a.length with
    | some n => pure (.nat n)
    | none => pure .done                                   -- `None`
  | .read r => onObj i r.run

/-- `hasattr(self._activation, item)`: the property is run; only `AttributeError` means that there is no such attribute. -/
def actHas (i : Nat) (item : Item) : Py Heap Bool := fun h =>
  match actGet i item h with
  | (.ok _, h') => (.ok true, h')
  | (.error .attributeError, h') => (.ok false, h')
  | (.error e, h') => (.error e, h')

/-- `ruleset.item` for such a name, lines 162-169 -/
def setGet (item : Item) : Py State Out := do
  let st ← Py.get
  match st.s.act with
  | none => Py.throw .attributeError
  | some i => do
    let b ← onHeap (actHas i item)
    if b then onHeap (actGet i item) else Py.throw .attributeError

end Verif.SetHeap
