import Verif.Vote

/-!
# Rulesets

Model of `/repo/ruleskit/ruleset.py`: construction, addition, appending, comparison, sorting and feature bookkeeping.

Simplifications.
* Rules are values.  The rules of a ruleset are different objects, and are not changed from outside.
* The two classes of rules are `RegressionRule` and `ClassificationRule`; plain `Rule` objects and other daughter classes
  are not modelled.
* The activation of a ruleset is its vector; that making an `Activation` can raise is a parameter.
* The columns of a DataFrame of different heights (which pandas completes with NaN) keep their own heights.
-/

namespace Verif

/-- A rule with its class -/
structure Member where
  kind : Kind
  rule : Rule
  deriving DecidableEq

/-- A ruleset, `/repo/ruleskit/ruleset.py` lines 88-101 -/
structure RuleSet where
  /-- `_rules` -/
  rules : List Member
  /-- `features_names` -/
  names : List String
  /-- `features_indexes` -/
  indexes : List Int
  /-- `_activation` -/
  act : Option (List Nat)
  /-- `_coverage` -/
  coverage : Thresholds.Attr
  criterion : Thresholds.Attr
  trainSize : Thresholds.Attr
  testSize : Thresholds.Attr
  /-- `stacked_activations` -/
  stacked : Option (Vote.Columns Nat)
  /-- `stack_activation` -/
  stack : Bool
  /-- `_rule_type` -/
  ruleType : Option Kind
  /-- `_compute_activation` -/
  compute : Bool
  deriving DecidableEq

/-- What the code of rulesets depends on besides rulesets. -/
structure RsEnv extends Vote.SetEnv where
  hasher : Cond.Hasher
  /-- `list(set(l))` of texts: in an order which the interpreter chooses -/
  strings : List String → List String
  strings_perm : ∀ l, (strings l).Perm l.dedup
  /-- `list(set(l))` of integers -/
  ints : List Int → List Int
  ints_perm : ∀ l, (ints l).Perm l.dedup
  /-- the order in which a set of rules is read -/
  order : List Member → List Member
  order_perm : ∀ l, (order l).Perm l
  /-- making the union of two activations of the same length can raise -/
  union : List Nat → List Nat → Except Err Unit
  /-- `Activation.multi_logical_or` can raise -/
  multi : List (List Nat) → Except Err Unit
  /-- `clear` of an activation of this length can raise -/
  clear : Nat → Except Err Unit
  /-- class attribute `STACKED_FIT` -/
  stackedFit : Bool
  /-- class attribute `CHECK_DUPLICATED` -/
  checkDuplicated : Bool
  /-- class attribute `all_features_indexes` -/
  allIndexes : Thresholds.Dict Int
  /-- `str` of a list of names, of indexes, of bounds -/
  strNames : Option (List String) → String
  strIndexes : Option (List Int) → String
  strBounds : Option (List Num) → String
  /-- `str` of a prediction -/
  strPred : Option Label → String

namespace RsEnv

/-- The environment of a rule of this class -/
def ofKind (R : RsEnv) (k : Kind) : Env := { R.env with kind := k }

end RsEnv

namespace RuleSet

open Vote (Columns dictOf)

/-- The ruleset of lines 88-102, before the rules are added -/
def blank (stack : Bool) : RuleSet :=
  { rules := [], names := [], indexes := [], act := none, coverage := .none, criterion := .none, trainSize := .none,
    testSize := .none, stacked := none, stack, ruleType := none, compute := true }

/-! ## Activation -/

/-- `a | b`, `/repo/ruleskit/activation.py` lines 628-643 -/
def union (R : RsEnv) (a b : List Nat) : Except Err (List Nat) :=
  if a.length ≠ b.length then .error .valueError
  else do
    R.union a b
    .ok (List.zipWith (· ||| ·) a b)

/-- `np.vstack([a, b]).any(axis=0).astype(np.ubyte)` for two rows of the same length -/
def anyOf (a b : List Nat) : List Nat := List.zipWith (fun x y : Nat => if x = 0 ∧ y = 0 then 0 else 1) a b

/-- `Activation.multi_logical_or`, `/repo/ruleskit/activation.py` lines 645-683, of at least two activations; rows of different
lengths are refused by `vstack`. -/
def multiOr (R : RsEnv) (acts : List (List Nat)) : Except Err (List Nat) :=
  match acts with
  | [] => .error .indexError
  | a :: rest => do
    R.multi acts
    if rest.any (fun b => decide (b.length ≠ a.length)) then .error .valueError
    else .ok (rest.foldl anyOf (a.map fun x : Nat => if x = 0 then 0 else 1))

/-- Lines 774-790: `multi_logical_or`, or one union after the other when there is not enough memory -/
def unionAll (R : RsEnv) (acts : List (List Nat)) : Except Err (List Nat) :=
  match multiOr R acts with
  | .error .memoryError =>
    match acts with
    | [] => .error .indexError
    | a :: rest => rest.foldlM (union R) a
  | x => x

/-- The activations of all rules: those of the features `xs`, or those of the rules; `none` if one of them has none.  Lines
766-771 -/
def activations (R : RsEnv) (xs : Option Xs) (rules : List Member) : Except Err (Option (List (List Nat))) :=
  match xs with
  | some x => (rules.mapM fun m : Member => m.rule.evaluateActivation (R.ofKind m.kind) x).map some
  | none => .ok (rules.mapM fun m : Member => m.rule.act)

/-- `evaluate_self_activation`, `/repo/ruleskit/ruleset.py` lines 757-790 -/
def evaluateSelf (R : RsEnv) (xs : Option Xs) (rules : List Member) : Except Err (Option (List Nat)) :=
  if rules.length = 0 then do
    R.env.store []
    .ok (some [])
  else do
    match ← activations R xs rules with
    | none => .ok none
    | some [a] => do
      R.env.store a
      .ok (some a)
    | some acts => (unionAll R acts).map some

/-- `compute_self_activation`, lines 792-795 -/
def computeSelf (R : RsEnv) (xs : Option Xs) : Py RuleSet Unit := do
  let s ← Py.get
  let a ← Py.ofExcept (evaluateSelf R xs s.rules)
  Py.modify fun s => { s with act := a }

/-- `{str(r.condition): ... for r in self}` from the conditions and values of the rules -/
def namedColumns (R : RsEnv) (rules : List Member) (acts : List (List Nat)) : List (String × List Nat) :=
  List.zipWith (fun m a => (R.condStr m.rule.cond, a)) rules acts

/-- `evaluate_stacked_activations`, lines 797-806 -/
def evaluateStacked (R : RsEnv) (xs : Option Xs) (rules : List Member) : Except Err (Option (Columns Nat)) :=
  if rules.length = 0 then .ok (some [])
  else do
    match ← activations R xs rules with
    | none => .ok none
    | some acts => (Vote.frameOf (namedColumns R rules acts)).map some

/-- `compute_stacked_activation`, lines 808-811 -/
def computeStacked (R : RsEnv) (xs : Option Xs) : Py RuleSet Unit := do
  let s ← Py.get
  let c ← Py.ofExcept (evaluateStacked R xs s.rules)
  Py.modify fun s => { s with stacked := c }

/-- The activation of a ruleset which is available, lines 255-263 -/
def available (s : RuleSet) : Option (List Nat) :=
  match s.act with
  | some v => if v.length = 0 then none else some v
  | none => none

/-- `ruleset_coverage`, lines 285-291 -/
def rulesetCoverage (s : RuleSet) : Thresholds.Attr :=
  match s.available with
  | none => s.coverage
  | some v => .num (.fin ((Rule.nones v : Rat) / v.length))

/-- `_update_activation`, lines 294-300; `other` is the activation of the rule or ruleset, if it is available.  An empty
activation of a rule is false, so that its vector is `None`. -/
def updateActivation (R : RsEnv) (other : Option (List Nat)) : Py RuleSet Unit :=
  match other with
  | none => pure ()
  | some v => do
    let s ← Py.get
    match s.available with
    | none =>
      if v.length = 0 then Py.throw .typeError
      else do
        Py.ofExcept (R.env.store v)
        Py.modify fun s => { s with act := some v }
    | some a => do
      let u ← Py.ofExcept (union R a v)
      Py.modify fun s => { s with act := some u }

/-- `df[name] = column` -/
def setColumn (c : Columns Nat) (name : String) (v : List Nat) : Except Err (Columns Nat) :=
  match c with
  | [] => .ok [(name, v)]
  | (_, u) :: _ =>
    if u.length ≠ v.length then .error .valueError
    else if c.any (fun p => p.1 = name) then .ok (c.map fun p => if p.1 = name then (name, v) else p)
    else .ok (c ++ [(name, v)])

/-- `_update_stacked_activation` with a rule, lines 303-317.  Simplification: an empty activation raises `ValueError` in all
cases. -/
def stackRule (R : RsEnv) (r : Rule) : Py RuleSet Unit :=
  match r.act with
  | none => pure ()
  | some v => do
    if v.length = 0 then Py.throw .valueError
    else do
      let s ← Py.get
      match s.stacked with
      | none => Py.modify fun s => { s with stacked := some [(R.condStr r.cond, v)] }
      | some c => do
        let c ← Py.ofExcept (setColumn c (R.condStr r.cond) v)
        Py.modify fun s => { s with stacked := some c }

/-- `_update_stacked_activation` with a ruleset, lines 306-319.  `pd.concat` ignores `None`. -/
def stackSet (other : RuleSet) : Py RuleSet Unit :=
  match other.available with
  | none => pure ()
  | some _ => do
    let s ← Py.get
    match s.stacked with
    | none => Py.modify fun s => { s with stacked := other.stacked }
    | some c => Py.modify fun s => { s with stacked := some (c ++ other.stacked.getD []) }

/-! ## Adding rules -/

/-- `self.features_indexes = list(set(self.features_indexes + l))`, line 142: `None` raises `TypeError`. -/
def noteIndexes (R : RsEnv) (l : Option (List Int)) : Py RuleSet Unit :=
  match l with
  | none => Py.throw .typeError
  | some l => Py.modify fun s => { s with indexes := R.ints (s.indexes ++ l) }

/-- `self.features_names = list(set(self.features_names + l))`, lines 143-144 -/
def noteNames (R : RsEnv) (l : Option (List String)) : Py RuleSet Unit :=
  match l with
  | none => Py.throw .typeError
  | some l => Py.modify fun s => { s with names := R.strings (s.names ++ l) }

/-- `if self._compute_activation: self._update_activation(other)`, lines 145-146 -/
def updateIf (R : RsEnv) (other : Option (List Nat)) : Py RuleSet Unit := do
  let s ← Py.get
  if s.compute then updateActivation R other else pure ()

/-- `if self.stack_activation: ...`, lines 147-148 -/
def stackIf (update : Py RuleSet Unit) : Py RuleSet Unit := do
  let s ← Py.get
  if s.stack then update else pure ()

/-- The check of lines 124-131 and the new rule, line 132 -/
def pushRule (m : Member) : Py RuleSet Unit := do
  let s ← Py.get
  match s.ruleType with
  | none => Py.modify fun s => { s with ruleType := some m.kind, rules := s.rules ++ [m] }
  | some k =>
    if k = m.kind then Py.modify fun s => { s with rules := s.rules ++ [m] }
    else Py.throw .typeError

/-- `__iadd__` with a rule, `/repo/ruleskit/ruleset.py` lines 120-149 -/
def iaddRule (R : RsEnv) (m : Member) : Py RuleSet Unit := do
  pushRule m
  noteIndexes R m.rule.cond.indexes
  noteNames R m.rule.cond.names
  updateIf R m.rule.act
  stackIf (stackRule R m.rule)

/-- The check of lines 134-138 and the new rules, lines 139-141 -/
def pushSet (other : RuleSet) : Py RuleSet Unit := do
  let s ← Py.get
  match s.ruleType, other.ruleType with
  | some k, some k' =>
    if k = k' then Py.modify fun s => { s with rules := s.rules ++ other.rules }
    else Py.throw .typeError
  | none, some k' => Py.modify fun s => { s with ruleType := some k', rules := s.rules ++ other.rules }
  | _, none => Py.modify fun s => { s with rules := s.rules ++ other.rules }

/-- `__iadd__` with a ruleset, same lines -/
def iaddSet (R : RsEnv) (other : RuleSet) : Py RuleSet Unit := do
  pushSet other
  noteIndexes R (some other.indexes)
  noteNames R (some other.names)
  updateIf R other.available
  stackIf (stackSet other)

/-- `append`, `/repo/ruleskit/ruleset.py` lines 680-693 -/
def append (R : RsEnv) (m : Member) (update : Bool) : Py RuleSet Unit := do
  let s ← Py.get
  if update then do
    iaddRule R m
    Py.modify fun t => { t with compute := true, stack := s.stack }
  else do
    Py.modify fun t => { t with compute := false, stack := false }
    iaddRule R m
    Py.modify fun t => { t with compute := true, stack := s.stack }

/-- `for rule in rules: self.append(rule, update_activation=False)` -/
def appendAll (R : RsEnv) : List Member → Py RuleSet Unit
  | [] => pure ()
  | m :: rest => do
    append R m false
    appendAll R rest

/-- `list(itertools.chain(*[rule.features_names for rule in self]))`: `None` raises `TypeError`. -/
def allNames (rules : List Member) : Except Err (List String) :=
  (rules.mapM fun m => Cond.need m.rule.cond.names).map List.flatten

/-- `[all_features_indexes[f] for f in l]`: a missing feature raises `KeyError`. -/
def indexesOf (R : RsEnv) (l : List String) : Except Err (List Int) :=
  l.mapM fun f => match R.allIndexes.get? f with
    | some i => .ok i
    | none => .error .keyError

/-- Lines 324-326: one rule after the other -/
def reindexRules (R : RsEnv) : List Member → Except Err (List Member)
  | [] => .ok []
  | m :: rest => do
    let na ← Cond.need m.rule.cond.names
    let idx ← indexesOf R na
    let rest ← reindexRules R rest
    .ok ({ m with rule := { m.rule with cond := { m.rule.cond with indexes := some idx } } } :: rest)

/-- `set_features_indexes`, lines 321-328.  Without `all_features_indexes` the list of line 328 is made and thrown away; making
it raises `TypeError` if a rule has no indexes. -/
def setFeaturesIndexes (R : RsEnv) : Py RuleSet Unit := do
  let s ← Py.get
  if R.allIndexes.length > 0 then do
    let idx ← Py.ofExcept (indexesOf R s.names)
    Py.modify fun s => { s with indexes := idx }
    let rules ← Py.ofExcept (reindexRules R s.rules)
    Py.modify fun s => { s with rules := rules }
  else do
    let _ ← Py.ofExcept (s.rules.mapM fun m => Cond.need m.rule.cond.indexes)
    pure ()

/-- The text by which rules are compared in `check_duplicated_rules` and `__contains__`, lines 49-52, 208-213 -/
def ruleText (R : RsEnv) (byName : Bool) (m : Member) : Except Err String := do
  let p ← m.rule.getPrediction (R.ofKind m.kind)
  let f := if byName then R.strNames m.rule.cond.names else R.strIndexes m.rule.cond.indexes
  .ok (f ++ R.strBounds m.rule.cond.bmins ++ R.strBounds m.rule.cond.bmaxs ++ R.strPred p)

/-- `check_duplicated_rules`, lines 48-67 -/
def checkDuplicatedRules (R : RsEnv) (byName : Bool) (rules : List Member) : Except Err Unit := do
  let l ← rules.mapM (ruleText R byName)
  if l.Nodup then .ok () else .error .valueError

/-- `if CHECK_DUPLICATED: ...`, lines 116-117 -/
def checkIf (R : RsEnv) : Py RuleSet Unit := do
  let s ← Py.get
  if R.checkDuplicated then Py.ofExcept (checkDuplicatedRules R (decide (s.names.length > 0)) s.rules) else pure ()

/-- `if compute_activation: self.compute_self_activation()`, lines 109-110 -/
def computeIf (R : RsEnv) (b : Bool) : Py RuleSet Unit := if b then computeSelf R none else pure ()

/-- Lines 113-114: `names_available` is computed before there is any rule, and is true. -/
def collectNames (R : RsEnv) : Py RuleSet Unit := do
  let s ← Py.get
  let l ← Py.ofExcept (allNames s.rules)
  Py.modify fun s => { s with names := R.strings l }

/-- `__init__` with a list of rules, `/repo/ruleskit/ruleset.py` lines 69-117 -/
def init (R : RsEnv) (rules : List Member) (compute : Bool) : Py RuleSet Unit := do
  appendAll R rules
  computeIf R compute
  stackIf (computeStacked R none)
  collectNames R
  setFeaturesIndexes R
  checkIf R

/-- `RuleSet(rules, compute_activation, stack_activation)` -/
def make (R : RsEnv) (rules : List Member) (compute stack : Bool) : Except Err RuleSet :=
  match init R rules compute (blank stack) with
  | (.ok _, s) => .ok s
  | (.error e, _) => .error e

/-! ## Comparison -/

/-- `hash(rule)`, `/repo/ruleskit/rule.py` lines 307-311: the hash of the frozenset of `"r"` and of the triples -/
def ruleHash (H : Cond.Hasher) (m : Member) : Except Err Int := do
  let t ← m.rule.cond.toHash
  .ok (H.frozenset (H.str "r" :: t.dedup.map fun x => H.tuple [H.str x.1, H.num x.2.1, H.num x.2.2]))

/-- What a set of rules looks at: the hash of a rule, then `==`, which compares the hashes of conditions
(`/repo/ruleskit/rule.py` lines 282-287). -/
def setKey (H : Cond.Hasher) (m : Member) : Except Err (Int × Int) := do
  let a ← ruleHash H m
  let b ← m.rule.cond.hash H
  .ok (a, b)

/-- One element for each key: the first one -/
def firsts {κ α} [DecidableEq κ] : List (κ × α) → List (κ × α)
  | [] => []
  | p :: rest => p :: (firsts rest).filter fun q => q.1 ≠ p.1

/-- `list(set(rules))` -/
def setOf (R : RsEnv) (rules : List Member) : Except Err (List Member) := do
  let keys ← rules.mapM (setKey R.hasher)
  .ok (R.order ((firsts (keys.zip rules)).map (·.2)))

/-- `__add__` with a rule, `/repo/ruleskit/ruleset.py` lines 152-160 -/
def addRule (R : RsEnv) (s : RuleSet) (m : Member) : Except Err RuleSet := make R (s.rules ++ [m]) s.compute s.stack

/-- `__add__` with a ruleset, same lines -/
def addSet (R : RsEnv) (s other : RuleSet) : Except Err RuleSet := do
  let rules ← setOf R (s.rules ++ other.rules)
  make R rules s.compute (s.stack && other.stack)

/-- `__eq__`, line 175 -/
def eq (R : RsEnv) (s other : RuleSet) : Except Err Bool := do
  let a ← s.rules.mapM (setKey R.hasher)
  let b ← other.rules.mapM (setKey R.hasher)
  .ok (a.all (fun k => k ∈ b) && b.all fun k => k ∈ a)

end RuleSet

end Verif
