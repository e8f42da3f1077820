import Verif.Save

/-!
# Rules of a decision tree

Model of `extract_rules_from_tree` of `/repo/ruleskit/utils/rule_utils.py`, lines 16-216.

Simplifications.
* The arrays of the tree, `xmins` and `xmaxs` are lists; a value of a node has one output, `value[node][0]`, whose entries are
  finite numbers.
* The logging and the unused argument `depth` are left out.
-/

namespace Verif

namespace Tree

/-- What `extract_rules_from_tree` is given: the tree of sklearn (`tree.tree_`, `n_features_`) and the other arguments -/
structure Input where
  /-- `tree_.feature`; `_tree.TREE_UNDEFINED = -2` at leaves -/
  feature : List Int
  /-- `tree_.threshold` -/
  threshold : List Num
  /-- `tree_.children_left` and `tree_.children_right`; -1 at leaves -/
  left : List Int
  right : List Int
  /-- `tree_.value[node][0]` -/
  value : List (List Rat)
  /-- `n_features_`, an attribute which recent versions of sklearn do not have any more -/
  nFeatures : Option Nat
  /-- a `DecisionTreeClassifier` or a `DecisionTreeRegressor` -/
  kind : Kind
  xmins : List Num
  xmaxs : List Num
  /-- `features_names` -/
  names : Option (List String)
  /-- `classes_names` -/
  classes : Option (List Label)
  getLeaf : Bool
  stack : Bool
  /-- class attribute `SORT_ACCORDING_TO` -/
  sortBy : String
  /-- how deep functions can call each other -/
  limit : Nat

/-- The names of the features, lines 96-97: without the attribute, `AttributeError`. -/
def featuresNames (I : Input) : Except Err (List String) :=
  match I.names with
  | some l => .ok l
  | none =>
    match I.nFeatures with
    | none => .error .attributeError
    | some n => .ok ((List.range n).map fun i : Nat => Cond.defaultName i)

/-- `HyperrectangleCondition(features_indexes=[f], bmins=[lo], bmaxs=[hi], features_names=[name])` -/
def single (by_ : String) (f : Int) (lo hi : Num) (name : String) : Except Err Cond :=
  Cond.initTyped by_ (some [f]) (some [lo]) (some [hi]) (some [name])

/-- The condition on the left of a node, lines 104-127: a list is changed in place, so that `impossible` is not computed again. -/
def leftCond (by_ : String) (cond : Option Cond) (f : Int) (xmin thr : Num) (name : String) : Except Err Cond := do
  let new ← single by_ f xmin thr name
  match cond with
  | none => .ok new
  | some c => do
    let idx ← Cond.need c.indexes
    if f ∉ idx then Cond.and by_ c new
    else do
      let hi ← Cond.need c.bmaxs
      let old ← Cond.item hi (idx.idxOf f)
      .ok { c with bmaxs := some (hi.set (idx.idxOf f) (Num.min thr old)) }

/-- The condition on the right of a node, lines 156-178 -/
def rightCond (by_ : String) (cond : Option Cond) (f : Int) (xmax thr : Num) (name : String) : Except Err Cond := do
  let new ← single by_ f thr xmax name
  match cond with
  | none => .ok new
  | some c => do
    let idx ← Cond.need c.indexes
    if f ∉ idx then Cond.and by_ c new
    else do
      let lo ← Cond.need c.bmins
      let oldLo ← Cond.item lo (idx.idxOf f)
      let hi ← Cond.need c.bmaxs
      let oldHi ← Cond.item hi (idx.idxOf f)
      .ok { c with
        bmins := some (lo.set (idx.idxOf f) (Num.max thr oldLo))
        bmaxs := some (hi.set (idx.idxOf f) (Num.max xmax oldHi)) }

/-- The prediction of the rules of a node, lines 134-142, 185-193, 199-211 -/
def nodePrediction (I : Input) (v : List Rat) : Except Err Pred :=
  match I.kind with
  | .regression => do
    let q ← Cond.item v 0
    .ok (.label (.num (.fin q)))
  | .classification =>
    match I.classes with
    | none => .ok (.probs (v.zipIdx.map fun p => (.num (.fin p.2), p.1)))
    | some names => do
      let l ← v.zipIdx.mapM fun p => do
        let n ← Cond.item names p.2
        .ok (n, p.1)
      .ok (.probs l)

/-- A rule of a node with its condition -/
def nodeRule (I : Input) (c : Cond) (p : Pred) : Member := { kind := I.kind, rule := { Save.blankRule with cond := c, prediction := p } }

/-- `new_rule = ...; rules_list.append(new_rule)` -/
def addRule (R : RsEnv) (I : Input) (node : Int) (c : Cond) : Py RuleSet Unit := do
  let v ← Py.ofExcept (Cond.pyItem I.value node)
  let p ← Py.ofExcept (nodePrediction I v)
  RuleSet.append R (nodeRule I c p) true

/-- `if get_leaf is False: ...` -/
def addTurn (R : RsEnv) (I : Input) (node : Int) (c : Cond) : Py RuleSet Unit := if I.getLeaf then pure () else addRule R I node c

/-- At a leaf, lines 197-211.  A rule without condition (when the root is a leaf) cannot be appended: `features_indexes` raises
`AttributeError`. -/
def addLeaf (R : RsEnv) (I : Input) (node : Int) (cond : Option Cond) : Py RuleSet Unit :=
  if I.getLeaf then
    match cond with
    | none => Py.throw .attributeError
    | some c => addRule R I node c
  else pure ()

/-- `visitor`, lines 99-213.  `fuel` is how deep it can still call itself. -/
def visit (R : RsEnv) (I : Input) (names : List String) : Nat → Int → Option Cond → Py RuleSet Unit
  | 0, _, _ => Py.throw .recursionError
  | fuel + 1, node, cond => do
    let f ← Py.ofExcept (Cond.pyItem I.feature node)
    if f ≠ -2 then do
      let xmin ← Py.ofExcept (Cond.pyItem I.xmins f)
      let thr ← Py.ofExcept (Cond.pyItem I.threshold node)
      let name ← Py.ofExcept (Cond.pyItem names f)
      let c ← Py.ofExcept (leftCond I.sortBy cond f xmin thr name)
      addTurn R I node c
      let left ← Py.ofExcept (Cond.pyItem I.left node)
      visit R I names fuel left (some c)
      let xmax ← Py.ofExcept (Cond.pyItem I.xmaxs f)
      let c ← Py.ofExcept (rightCond I.sortBy cond f xmax thr name)
      addTurn R I node c
      let right ← Py.ofExcept (Cond.pyItem I.right node)
      visit R I names fuel right (some c)
    else addLeaf R I node cond

/-- `extract_rules_from_tree`, lines 16-216.  The ruleset is made without rules; the rules have no activation. -/
def extract (R : RsEnv) (I : Input) : Except Err RuleSet := do
  let names ← featuresNames I
  match visit R I names I.limit 0 none (RuleSet.blank I.stack) with
  | (.ok _, s) => .ok s
  | (.error e, _) => .error e

end Tree

end Verif
