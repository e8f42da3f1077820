import Verif.CondHeap

/-!
# Which lists belong to which condition: specification
-/

namespace Verif.CondHeap

open Verif

/-- The lists of the condition exist. -/
structure Valid (s : Store) (o : CObj) : Prop where
  idx : ∀ r, o.idx = some r → r < s.ints.length
  lo : ∀ r, o.lo = some r → r < s.nums.length
  hi : ∀ r, o.hi = some r → r < s.nums.length
  names : ∀ r, o.names = some r → r < s.strs.length

/-- No list of the condition existed in `s`, and its bounds are two lists. -/
structure Own (s : Store) (o : CObj) : Prop where
  idx : ∃ r, o.idx = some r ∧ s.ints.length ≤ r
  lo : ∃ r, o.lo = some r ∧ s.nums.length ≤ r
  hi : ∃ r, o.hi = some r ∧ s.nums.length ≤ r
  names : ∃ r, o.names = some r ∧ s.strs.length ≤ r
  ne : o.lo ≠ o.hi

/-- Every list and every condition of `s` is unchanged in `s'`. -/
structure Ext (s s' : Store) : Prop where
  ints : ∀ (r : Nat) (l : List Int), s.ints[r]? = some l → s'.ints[r]? = some l
  nums : ∀ (r : Nat) (l : List Num), s.nums[r]? = some l → s'.nums[r]? = some l
  strs : ∀ (r : Nat) (l : List String), s.strs[r]? = some l → s'.strs[r]? = some l
  conds : s'.conds = s.conds
  nInts : s.ints.length ≤ s'.ints.length
  nNums : s.nums.length ≤ s'.nums.length
  nStrs : s.strs.length ≤ s'.strs.length

/-! ## Programs on values: conditions are values, no two share anything -/

/-- Change one condition. -/
def onCond (i : Nat) (m : Py Cond Unit) : Py (List Cond) Unit := fun cs =>
  match cs[i]? with
  | none => (.error .indexError, cs)
  | some c => ((m c).1, cs.set i (m c).2)

/-- Add a condition. -/
def addCond (x : Except Err Cond) : Py (List Cond) Unit := fun cs =>
  match x with
  | .error e => (.error e, cs)
  | .ok c => (.ok (), cs ++ [c])

/-- `l[k] = v`, as a value -/
def putAt {α : Type} (l : Option (List α)) (k : Nat) (v : α) : Except Err (List α) :=
  match l with
  | none => .error .typeError
  | some l => if k < l.length then .ok (l.set k v) else .error .indexError

/-- Change a condition if a value could be computed. -/
def change {α : Type} (f : Cond → Except Err α) (g : Cond → α → Cond) : Py Cond Unit := fun c =>
  match f c with
  | .error e => (.error e, c)
  | .ok a => (.ok (), g c a)

/-- What a step means. -/
def Op.value : Op → Py (List Cond) Unit
  | .build by_ idx lo hi names sort_ => addCond (Cond.init by_ (idx.map (·.map V.int)) (some (lo.map V.float)) (some (hi.map V.float))
      (names.map (·.map V.str)) false sort_)
  | .meet by_ i j => fun cs =>
    match cs[i]?, cs[j]? with
    | some a, some b => addCond (Cond.and by_ a b) cs
    | _, _ => (.error .indexError, cs)
  | .setIdx i l => onCond i (Cond.setIndexes (.list l))
  | .setNames i l => onCond i (Cond.setNames (.list l))
  | .setBmins i l => onCond i (Cond.setBmins (.list l))
  | .setBmaxs i l => onCond i (Cond.setBmaxs (.list l))
  | .putIdx i k v => onCond i (change (fun c => putAt c.indexes k v) fun c l => { c with indexes := some l })
  | .putName i k v => onCond i (change (fun c => putAt c.names k v) fun c l => { c with names := some l })
  | .putBmin i k v => onCond i (change (fun c => putAt c.bmins k v) fun c l => { c with bmins := some l })
  | .putBmax i k v => onCond i (change (fun c => putAt c.bmaxs k v) fun c l => { c with bmaxs := some l })
  | .sort by_ i => onCond i (change (fun c => c.sort by_) fun _ c => c)
  | .normalize i => onCond i Cond.normalizeIndexes

/-- What a program means. -/
def valueAll : List Op → List Cond → List Cond
  | [], cs => cs
  | op :: rest, cs => valueAll rest (op.value cs).2

/-- The condition a step is about, if it exists already. -/
def Op.target : Op → Option Nat
  | .setIdx i _ | .setNames i _ | .setBmins i _ | .setBmaxs i _ | .putIdx i _ _ | .putName i _ _ | .putBmin i _ _ | .putBmax i _ _
  | .sort _ i | .normalize i => some i
  | .build .. | .meet .. => none

/-- The conditions of a program, as values. -/
def shown (s : Store) : List Cond := s.conds.map (view s)

end Verif.CondHeap
