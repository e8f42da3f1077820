import Verif.RuleSet

/-!
# Elements of nested lists

Model of `traverse`, `/repo/ruleskit/ruleset.py` lines 1414-1428.  The generator is modelled by the list of what it yields.  Simplified: objects
do not contain themselves and are not nested deeper than the recursion limit of Python.
-/

namespace Verif.Traverse

/-- Objects which `traverse` is called on: lists, tuples, rulesets (which yield their rules, `RuleSet.__iter__`, lines 178-182, `none` for
a ruleset which has no `_rules` yet), and anything else -/
inductive Obj (α : Type) where
  | other (a : α)
  | list (items : List (Obj α))
  | tuple (items : List (Obj α))
  | ruleset (rules : Option (List (Obj α)))

/-- The classes which `tree_types` can name -/
inductive TreeType where
  | list
  | tuple
  | ruleset
  deriving DecidableEq

variable {α : Type}

/-- `isinstance(o, tree_types)`, line 1423 -/
def isTree (types : List TreeType) : Obj α → Bool
  | .other _ => false
  | .list _ => decide (.list ∈ types)
  | .tuple _ => decide (.tuple ∈ types)
  | .ruleset _ => decide (.ruleset ∈ types)

/-- The default of `tree_types`, line 1415 -/
def defaultTypes : List TreeType := [.list, .tuple, .ruleset]

mutual
/-- `traverse(o, tree_types)`, lines 1423-1428 -/
def traverse (types : List TreeType) : Obj α → List (Obj α)
  | .other a => [.other a]
  | .list items => if isTree types (.list items) then traverseAll types items else [.list items]
  | .tuple items => if isTree types (.tuple items) then traverseAll types items else [.tuple items]
  | .ruleset none => if isTree types (.ruleset (none : Option (List (Obj α)))) then [] else [.ruleset none]
  | .ruleset (some rules) => if isTree types (.ruleset (some rules)) then traverseAll types rules else [.ruleset (some rules)]
/-- The loop of lines 1424-1426 -/
def traverseAll (types : List TreeType) : List (Obj α) → List (Obj α)
  | [] => []
  | o :: rest => traverse types o ++ traverseAll types rest
end

/-- `traverse([rule.features_names for rule in self])`, line 929: the names of all rules -/
def namesOf (names : List (List String)) : List (Obj String) :=
  traverse defaultTypes (.list (names.map fun l => .list (l.map .other)))

end Verif.Traverse
