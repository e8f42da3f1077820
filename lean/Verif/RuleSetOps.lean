import Verif.RuleSet

/-!
# Rulesets: membership, sorting, features, the `rules` setter and slices

Model of further parts of `/repo/ruleskit/ruleset.py`.
-/

namespace Verif

namespace RuleSet

open Vote (Columns dictOf)
open Thresholds (Attr)

/-- `__contains__`, `/repo/ruleskit/ruleset.py` lines 204-215 -/
def contains (R : RsEnv) (s : RuleSet) (m : Member) : Except Err Bool := do
  let byName := decide (s.names.length > 0)
  let l ← s.rules.mapM (ruleText R byName)
  let t ← ruleText R byName m
  .ok (decide (t ∈ l))

/-! ## Sorting -/

/-- `str(rule.features_names)` or `str(rule.features_indexes)`, lines 714-718, 735-739 -/
def featuresText (R : RsEnv) (byName : Bool) (m : Member) : String :=
  if byName then R.strNames m.rule.cond.names else R.strIndexes m.rule.cond.indexes

/-- `len(ast.literal_eval(text))`, line 722, for the text of the features of a rule: `len(None)` raises `TypeError`. -/
def featuresCount (byName : Bool) (m : Member) : Except Err Nat :=
  if byName then (Cond.need m.rule.cond.names).map List.length else (Cond.need m.rule.cond.indexes).map List.length

/-- `a < b` between lists of numbers: the first position where they differ decides. -/
def listLt : List Num → List Num → Bool
  | [], [] => false
  | [], _ :: _ => true
  | _ :: _, [] => false
  | a :: as, b :: bs => if a.beq b then listLt as bs else a.lt b

/-- `x.condition.bmins + x.condition.bmaxs`, line 742: `None` raises `TypeError`. -/
def boundsOf (m : Member) : Except Err (List Num) := do
  let lo ← Cond.need m.rule.cond.bmins
  let hi ← Cond.need m.rule.cond.bmaxs
  .ok (lo ++ hi)

/-- `sorted(l, key=...)` with the keys beside the elements.  Any stable sort gives the same list as Python's when keys are
comparable; this one is insertion sort. -/
def sortByKey {κ α} (lt : κ → κ → Bool) (l : List (κ × α)) : List (κ × α) := l.insertionSort fun a b => lt b.1 a.1 = false

/-- The rules of one group, lines 741-743 -/
def sortGroup (rules : List Member) : Except Err (List Member) := do
  let keys ← rules.mapM boundsOf
  .ok ((sortByKey listLt (keys.zip rules)).map (·.2))

/-- `l.sort(reverse=reverse)` of different texts, line 729 -/
def sortTexts (reverse : Bool) (l : List String) : List String :=
  if reverse then l.insertionSort fun a b => b ≤ a else l.insertionSort fun a b => a ≤ b

/-- A rule with the text and the number of its features -/
abbrev Tagged := String × Nat × Member

/-- The texts of the groups in order, lines 711-732: `range(1, lmax + 1)` leaves out the texts without feature. -/
def groupTexts (R : RsEnv) (reverse : Bool) (l : List Tagged) : List String :=
  let texts := R.strings (l.map (·.1))
  let count := fun t => ((l.find? fun p => p.1 = t).map (·.2.1)).getD 0
  let lmax := (l.map (·.2.1)).foldl Nat.max 1
  ((List.range lmax).map (· + 1)).flatMap fun n => sortTexts reverse (texts.filter fun t => count t = n)

/-- Sorting without criterion, lines 709-745 -/
def sortRules (R : RsEnv) (byName reverse : Bool) (rules : List Member) : Except Err (List Member) := do
  let counts ← rules.mapM (featuresCount byName)
  let tagged : List Tagged := List.zipWith (fun m n => (featuresText R byName m, n, m)) rules counts
  let texts := groupTexts R reverse tagged
  if tagged.any (fun p => decide (p.1 ∉ texts)) then .error .keyError
  else do
    let groups ← texts.mapM fun t => sortGroup ((tagged.filter fun p => p.1 = t).map (·.2.2))
    .ok groups.flatten

/-- `a < b` between two attributes: numbers and texts, `TypeError` otherwise -/
def attrLt : Attr → Attr → Except Err Bool
  | .num x, .num y => .ok (x.lt y)
  | .str x, .str y => .ok (decide (x < y))
  | _, _ => .error .typeError

/-- `sorted` when a comparison can raise.  Sorting a list of at least two elements compares elements which are neighbours in the
result, so that a list with elements of different types always raises. -/
def comparable : List Attr → Bool
  | [] => true
  | [_] => true
  | l => l.all (fun a => match a with | .num _ => true | _ => false) || l.all fun a => match a with | .str _ => true | _ => false

/-- `sorted(self, key=lambda x: getattr(x, criterion), reverse=reverse)`, line 747: equal elements keep their order, also in
reverse. -/
def sortByCriterion (reverse : Bool) (l : List (Attr × Member)) : Except Err (List Member) :=
  if comparable (l.map (·.1)) then
    let lt := fun a b : Attr => match attrLt a b with | .ok b => b | .error _ => false
    .ok ((sortByKey (fun a b => if reverse then lt b a else lt a b) l).map (·.2))
  else .error .typeError

/-- `df[names]`: a missing name raises `KeyError`; a name which several columns have selects all of them. -/
def selectColumns (c : Columns Nat) (names : List String) : Except Err (Columns Nat) :=
  if names.any (fun n => !c.any fun p => p.1 = n) then .error .keyError
  else .ok (names.flatMap fun n => c.filter fun p => p.1 = n)

/-- `self.stacked_activations[[str(r.condition) for r in self]]`, lines 750-751: `None` cannot be subscripted. -/
def reorderStacked (R : RsEnv) : Py RuleSet Unit := do
  let s ← Py.get
  match s.stacked with
  | none => Py.throw .typeError
  | some c => do
    let c ← Py.ofExcept (selectColumns c (s.rules.map fun m => R.condStr m.rule.cond))
    Py.modify fun s => { s with stacked := some c }

/-- The new order, lines 709-749; `criterion` is `none` for `None` and the empty text. -/
def sortedRules (R : RsEnv) (criterion : Option String) (reverse : Bool) (s : RuleSet) : Except Err (List Member) :=
  match criterion with
  | none => sortRules R (decide (s.names.length > 0)) reverse s.rules
  | some a =>
    match s.rules with
    | [] => .ok []
    | m :: _ =>
      match m.rule.getattr (R.ofKind m.kind) a with
      | .error .attributeError => .error .valueError
      | .error e => .error e
      | .ok _ => do
        let keys ← s.rules.mapM fun m => m.rule.getattr (R.ofKind m.kind) a
        sortByCriterion reverse (keys.zip s.rules)

/-- `sort`, `/repo/ruleskit/ruleset.py` lines 695-751 -/
def sort (R : RsEnv) (criterion : Option String) (reverse : Bool) : Py RuleSet Unit := do
  let s ← Py.get
  if s.rules.length = 0 then pure ()
  else do
    let rules ← Py.ofExcept (sortedRules R criterion reverse s)
    Py.modify fun s => { s with rules := rules }
    stackIf (reorderStacked R)

/-! ## Features -/

/-- `Counter(l).most_common()`: distinct values with their numbers of occurrences, the most frequent first, in order of first
appearance among equally frequent ones -/
def mostCommon (l : List String) : List (String × Nat) :=
  (l.foldl (fun acc x =>
    if acc.any (fun p : String × Nat => p.1 = x) then acc.map (fun p => if p.1 = x then (p.1, p.2 + 1) else p)
    else acc ++ [(x, 1)]) []).insertionSort fun a b => b.2 ≤ a.2

/-- `get_features_count`, lines 869-887: without names, `feautres_indexes` (line 883) is not an attribute of rules. -/
def featuresCounts (s : RuleSet) : Except Err (List (String × Nat)) :=
  if s.rules.length = 0 then .ok []
  else if s.names.length > 0 then (allNames s.rules).map mostCommon
  else .error .attributeError

/-! ## The setter of `rules`, slices -/

/-- `rules` setter, lines 236-243: the type of the rules is not copied. -/
def setRules (R : RsEnv) (rules : List Member) : Py RuleSet Unit := do
  let s ← Py.get
  let t ← Py.ofExcept (make R rules true s.stack)
  Py.modify fun s => { s with
    rules := t.rules, names := t.names, indexes := t.indexes, stacked := t.stacked, act := t.act }

/-- A position of a slice, clipped: negative ones are counted from the end. -/
def clip (len lower upper i : Int) : Int := if i < 0 then max (i + len) lower else min i upper

/-- `slice(start, stop, step).indices(len)`: the first position, where to stop, and the step; a null step raises `ValueError`. -/
def sliceIndices (start stop step : Option Int) (len : Int) : Except Err (Int × Int × Int) :=
  let k := step.getD 1
  if k = 0 then .error .valueError
  else if k < 0 then .ok ((start.map (clip len (-1) (len - 1))).getD (len - 1), (stop.map (clip len (-1) (len - 1))).getD (-1), k)
  else .ok ((start.map (clip len 0 len)).getD 0, (stop.map (clip len 0 len)).getD len, k)

/-- `range(a, b, k)` -/
def pyRange (a b k : Int) : List Int :=
  let n := if k < 0 then (a - b + (-k) - 1) / (-k) else (b - a + k - 1) / k
  (List.range n.toNat).map fun i : Nat => a + i * k

/-- `l[i]`: negative positions are counted from the end. -/
def getItem (l : List Member) (i : Int) : Except Err Member :=
  if i < -(l.length : Int) then .error .indexError
  else
    match l[(if i < 0 then i + l.length else i).toNat]? with
    | some m => .ok m
    | none => .error .indexError

/-- `self[start:stop:step]`, lines 184-188: a new ruleset, which does not stack activations. -/
def slice (R : RsEnv) (s : RuleSet) (start stop step : Option Int) : Except Err RuleSet := do
  let p ← sliceIndices start stop step s.rules.length
  let rules ← (pyRange p.1 p.2.1 p.2.2).mapM (getItem s.rules)
  make R rules true false

end RuleSet

end Verif
