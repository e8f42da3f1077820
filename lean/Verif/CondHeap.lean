import Verif.Condition

/-!
# Conditions and the lists they keep

`/repo/ruleskit/condition.py` again, with the lists of Python as objects: in `Condition.lean` a condition is a value, here it
refers to four lists, which other conditions or the caller may refer to as well and which can be changed in place.

Values are computed by the functions of `Condition.lean`; what is added here is which lists are new, which are those given, and which
are changed.  Simplification: lists of indexes, of bounds and of names are kept apart.
-/

namespace Verif.CondHeap

open Verif Verif.Cond

/-- A condition: references to its lists, `None` for those of an empty condition, and `impossible`. -/
structure CObj where
  idx : Option Nat
  lo : Option Nat
  hi : Option Nat
  names : Option Nat
  impossible : Bool
  deriving DecidableEq

/-- All lists of the program, and its conditions. -/
structure Store where
  ints : List (List Int)
  nums : List (List Num)
  strs : List (List String)
  conds : List CObj
  deriving DecidableEq

/-- The list referred to, if any -/
def vals {α : Type} (l : List (List α)) (r : Option Nat) : Option (List α) := r.bind fun k => l[k]?

/-- The condition as a value. -/
def view (s : Store) (o : CObj) : Cond where
  indexes := vals s.ints o.idx
  bmins := vals s.nums o.lo
  bmaxs := vals s.nums o.hi
  names := vals s.strs o.names
  impossible := o.impossible

/-- A new list of indexes. -/
def newInts (l : List Int) : Py Store Nat := fun s => (.ok s.ints.length, { s with ints := s.ints ++ [l] })

/-- A new list of bounds. -/
def newNums (l : List Num) : Py Store Nat := fun s => (.ok s.nums.length, { s with nums := s.nums ++ [l] })

/-- A new list of names. -/
def newStrs (l : List String) : Py Store Nat := fun s => (.ok s.strs.length, { s with strs := s.strs ++ [l] })

/-- `l[k] = v` for a list of bounds and a position which is not negative -/
def setNum (r : Option Nat) (k : Nat) (v : Num) : Py Store Unit := fun s =>
  match r with
  | none => (.error .typeError, s)
  | some r =>
    match s.nums[r]? with
    | none => (.error .typeError, s)
    | some l => if k < l.length then (.ok (), { s with nums := s.nums.set r (l.set k v) }) else (.error .indexError, s)

/-- New lists for the four attributes, as made by the comprehensions of `sort`. -/
def newLists (c : Cond) : Py Store CObj := do
  let lo ← newNums (c.bmins.getD [])
  let hi ← newNums (c.bmaxs.getD [])
  let names ← newStrs (c.names.getD [])
  let idx ← newInts (c.indexes.getD [])
  pure ⟨some idx, some lo, some hi, some names, c.impossible⟩

/-- `sort`, lines 386-402: with more than one feature, four new lists; otherwise nothing. -/
def sort (by_ : String) (o : CObj) : Py Store CObj := do
  let s ← Py.get
  if (view s o).length > 1 then do
    let c ← Py.ofExcept ((view s o).sort by_)
    newLists c
  else pure o

/-- The list of indexes given, or a new one -/
def orInts (r : Option Nat) (l : List Int) : Py Store Nat :=
  match r with
  | some r => pure r
  | none => newInts l

/-- The list of names given, or a new one -/
def orStrs (r : Option Nat) (l : List String) : Py Store Nat :=
  match r with
  | some r => pure r
  | none => newStrs l

/-- `HyperrectangleCondition.__init__`, lines 125-178: the lists given are kept (lines 38, 167-170), those not given are made (lines
144, 174), then comes `sort`. -/
def make (by_ : String) (idx lo hi names : Option Nat) (sort_ : Bool) : Py Store CObj := do
  let s ← Py.get
  let c ← Py.ofExcept (Cond.init by_ ((vals s.ints idx).map (·.map V.int)) ((vals s.nums lo).map (·.map V.float))
    ((vals s.nums hi).map (·.map V.float)) ((vals s.strs names).map (·.map V.str)) false false)
  let i ← orInts idx (c.indexes.getD [])
  let n ← orStrs names (c.names.getD [])
  let o : CObj := ⟨some i, lo, hi, some n, c.impossible⟩
  if sort_ then sort by_ o else pure o

/-- `copy(l)` of a list of indexes or `None`, line 196 -/
def copyInts (r : Option Nat) : Py Store (Option Nat) := fun s =>
  match vals s.ints r with
  | some l => (.ok (some s.ints.length), (newInts l s).2)
  | none => (.ok none, s)

/-- `copy(l)` of a list of bounds, lines 197-198 -/
def copyNums (r : Option Nat) : Py Store (Option Nat) := fun s =>
  match vals s.nums r with
  | some l => (.ok (some s.nums.length), (newNums l s).2)
  | none => (.ok none, s)

/-- `copy(l)` of a list of names, line 199 -/
def copyStrs (r : Option Nat) : Py Store (Option Nat) := fun s =>
  match vals s.strs r with
  | some l => (.ok (some s.strs.length), (newStrs l s).2)
  | none => (.ok none, s)

/-- `for i, index in enumerate(positions): self_clone.bmins[index] = …; self_clone.bmaxs[index] = …`, lines 269-271 -/
def assignBoth (lo hi : Option Nat) : List (Nat × Num × Num) → Py Store Unit
  | [] => pure ()
  | (k, a, b) :: rest => do
    setNum lo k a
    setNum hi k b
    assignBoth lo hi rest

/-- `HyperrectangleCondition(…)` of four lists just computed, lines 246-265 and 275-289 -/
def fresh (by_ : String) (i : List Int) (lo hi : List Num) (n : List String) : Py Store CObj := do
  let i ← newInts i
  let l ← newNums lo
  let u ← newNums hi
  let n ← newStrs n
  make by_ (some i) (some l) (some u) (some n) true

/-- Lines 215-271 of `__and__`, when there are common features: what `other` requires of the other features, and the bounds of the
common ones written into the copy of `self`. -/
def meetCommon (by_ : String) (clone : CObj) (c d : List Int × List Num × List Num × List String) (common : List String) :
    Py Store CObj := do
  let posS := common.map fun f => c.2.2.2.idxOf f
  let posO := common.map fun f => d.2.2.2.idxOf f
  let idxS ← Py.ofExcept (posS.mapM (item c.1))
  let loS ← Py.ofExcept (posS.mapM (item c.2.1))
  let hiS ← Py.ofExcept (posS.mapM (item c.2.2.1))
  let idxO ← Py.ofExcept (posO.mapM (item d.1))
  let loO ← Py.ofExcept (posO.mapM (item d.2.1))
  let hiO ← Py.ofExcept (posO.mapM (item d.2.2.1))
  if idxS ≠ idxO then Py.throw .indexError
  else do
    let rest ← fresh by_ (without d.1 posO) (without d.2.1 posO) (without d.2.2.1 posO)
      (d.2.2.2.filter fun f => decide (f ∉ common))
    assignBoth clone.lo clone.hi (posS.zip ((List.zipWith Num.max loS loO).zip (List.zipWith Num.min hiS hiO)))
    pure rest

/-- The four lists of a condition, which must not be `None` -/
def lists (o : CObj) : Py Store (List Int × List Num × List Num × List String) := do
  let s ← Py.get
  let names ← Py.ofExcept (need (view s o).names)
  let idx ← Py.ofExcept (need (view s o).indexes)
  let lo ← Py.ofExcept (need (view s o).bmins)
  let hi ← Py.ofExcept (need (view s o).bmaxs)
  pure (idx, lo, hi, names)

/-- Lines 203-273 of `__and__` -/
def meetRest (by_ : String) (clone other : CObj) : Py Store CObj := do
  let c ← lists clone
  let d ← lists other
  let common := c.2.2.2.filter fun f => decide (f ∈ d.2.2.2)
  if common.length > 0 then meetCommon by_ clone c d common else pure other

/-- Lines 275-289 of `__and__` -/
def concat (by_ : String) (clone rest : CObj) : Py Store CObj := do
  let c ← lists clone
  let r ← lists rest
  if ¬ (c.1 ++ r.1).Nodup then Py.throw .indexError
  else fresh by_ (c.1 ++ r.1) (c.2.1 ++ r.2.1) (c.2.2.1 ++ r.2.2.1) (c.2.2.2 ++ r.2.2.2)

/-- `__and__`, lines 180-289; see `Cond.and`. -/
def meet (by_ : String) (self other : CObj) : Py Store CObj := do
  let i ← copyInts self.idx
  let lo ← copyNums self.lo
  let hi ← copyNums self.hi
  let n ← copyStrs self.names
  let clone ← make by_ i lo hi n true
  let rest ← meetRest by_ clone other
  concat by_ clone rest

/-! ## Programs -/

/-- `l[k] = v` for a list of indexes; see `setNum` -/
def setInt (r : Option Nat) (k : Nat) (v : Int) : Py Store Unit := fun s =>
  match r with
  | none => (.error .typeError, s)
  | some r =>
    match s.ints[r]? with
    | none => (.error .typeError, s)
    | some l => if k < l.length then (.ok (), { s with ints := s.ints.set r (l.set k v) }) else (.error .indexError, s)

/-- `l[k] = v` for a list of names; see `setNum` -/
def setStr (r : Option Nat) (k : Nat) (v : String) : Py Store Unit := fun s =>
  match r with
  | none => (.error .typeError, s)
  | some r =>
    match s.strs[r]? with
    | none => (.error .typeError, s)
    | some l => if k < l.length then (.ok (), { s with strs := s.strs.set r (l.set k v) }) else (.error .indexError, s)

/-- What a program does with conditions, numbered in the order in which they are made.  Lists are written where they are used
(`c.bmins = [1, 2]`), none is kept in a variable. -/
inductive Op where
  /-- `HyperrectangleCondition(idx, lo, hi, names, sort=…)` -/
  | build (by_ : String) (idx : Option (List Int)) (lo hi : List Num) (names : Option (List String)) (sort_ : Bool)
  /-- `conditions[i] & conditions[j]` -/
  | meet (by_ : String) (i j : Nat)
  /-- `conditions[i].features_indexes = l` -/
  | setIdx (i : Nat) (l : List Int)
  /-- `conditions[i].features_names = l` -/
  | setNames (i : Nat) (l : List String)
  /-- `conditions[i].bmins = l` -/
  | setBmins (i : Nat) (l : List Num)
  /-- `conditions[i].bmaxs = l` -/
  | setBmaxs (i : Nat) (l : List Num)
  /-- `conditions[i].features_indexes[k] = v` -/
  | putIdx (i k : Nat) (v : Int)
  /-- `conditions[i].features_names[k] = v` -/
  | putName (i k : Nat) (v : String)
  /-- `conditions[i].bmins[k] = v` -/
  | putBmin (i k : Nat) (v : Num)
  /-- `conditions[i].bmaxs[k] = v` -/
  | putBmax (i k : Nat) (v : Num)
  /-- `conditions[i].sort()` -/
  | sort (by_ : String) (i : Nat)
  /-- `conditions[i].normalize_features_indexes()` -/
  | normalize (i : Nat)

/-- The condition a program refers to. -/
def lookup (i : Nat) : Py Store CObj := fun s =>
  match s.conds[i]? with
  | some o => (.ok o, s)
  | none => (.error .indexError, s)

/-- A new condition. -/
def keep (o : CObj) : Py Store Unit := Py.modify fun s => { s with conds := s.conds ++ [o] }

/-- Change the attributes of a condition. -/
def replace (i : Nat) (o : CObj) : Py Store Unit := Py.modify fun s => { s with conds := s.conds.set i o }

/-- The check at the end of the setters of bounds, lines 323-325 and 335-337 -/
def checkImpossible (i : Nat) (o : CObj) : Py Store Unit := do
  let s ← Py.get
  let lo ← Py.ofExcept (need (view s o).bmins)
  let hi ← Py.ofExcept (need (view s o).bmaxs)
  if someInverted lo hi then replace i { o with impossible := true } else pure ()

/-- A list of indexes written in a call, or nothing -/
def writeInts : Option (List Int) → Py Store (Option Nat)
  | some l => do
    let r ← newInts l
    pure (some r)
  | none => pure none

/-- A list of names written in a call, or nothing -/
def writeStrs : Option (List String) → Py Store (Option Nat)
  | some l => do
    let r ← newStrs l
    pure (some r)
  | none => pure none

/-- `features_indexes` setter, lines 65-73: the list given is kept. -/
def assignIdx (i : Nat) (o : CObj) (r : Nat) (l : List Int) : Py Store Unit := do
  let s ← Py.get
  if ¬ l.Nodup then Py.throw .duplicatedFeatures
  else if (view s o).length > 0 ∧ (view s o).length ≠ l.length then Py.throw .indexError
  else replace i { o with idx := some r }

/-- `features_names` setter, lines 307-314 -/
def assignNames (i : Nat) (o : CObj) (r : Nat) (l : List String) : Py Store Unit := do
  let s ← Py.get
  if ¬ l.Nodup then Py.throw .duplicatedFeatures
  else if (view s o).length > 0 ∧ (view s o).length ≠ l.length then Py.throw .indexError
  else replace i { o with names := some r }

/-- `bmins` setter, lines 316-325 -/
def assignBmins (i : Nat) (o : CObj) (r : Nat) (l : List Num) : Py Store Unit := do
  let s ← Py.get
  if (view s o).length > 0 ∧ (view s o).length ≠ l.length then Py.throw .indexError
  else do
    replace i { o with lo := some r }
    checkImpossible i { o with lo := some r }

/-- `bmaxs` setter, lines 327-337 -/
def assignBmaxs (i : Nat) (o : CObj) (r : Nat) (l : List Num) : Py Store Unit := do
  let s ← Py.get
  if (view s o).length > 0 ∧ (view s o).length ≠ l.length then Py.throw .indexError
  else do
    replace i { o with hi := some r }
    checkImpossible i { o with hi := some r }

/-- `normalize_features_indexes`, lines 97-100: a new list. -/
def normalize (i : Nat) (o : CObj) : Py Store Unit := do
  let s ← Py.get
  let idx ← Py.ofExcept (need (view s o).indexes)
  let r ← newInts ((List.range idx.length).map Int.ofNat)
  replace i { o with idx := some r }

/-- One step of a program. -/
def Op.run : Op → Py Store Unit
  | .build by_ idx lo hi names sort_ => do
    let i ← writeInts idx
    let l ← newNums lo
    let u ← newNums hi
    let n ← writeStrs names
    let o ← make by_ i (some l) (some u) n sort_
    keep o
  | .meet by_ i j => do
    let a ← lookup i
    let b ← lookup j
    let o ← CondHeap.meet by_ a b
    keep o
  | .setIdx i l => do
    let o ← lookup i
    let r ← newInts l
    assignIdx i o r l
  | .setNames i l => do
    let o ← lookup i
    let r ← newStrs l
    assignNames i o r l
  | .setBmins i l => do
    let o ← lookup i
    let r ← newNums l
    assignBmins i o r l
  | .setBmaxs i l => do
    let o ← lookup i
    let r ← newNums l
    assignBmaxs i o r l
  | .putIdx i k v => do
    let o ← lookup i
    setInt o.idx k v
  | .putName i k v => do
    let o ← lookup i
    setStr o.names k v
  | .putBmin i k v => do
    let o ← lookup i
    setNum o.lo k v
  | .putBmax i k v => do
    let o ← lookup i
    setNum o.hi k v
  | .sort by_ i => do
    let o ← lookup i
    let o' ← CondHeap.sort by_ o
    replace i o'
  | .normalize i => do
    let o ← lookup i
    CondHeap.normalize i o

/-- A program: one step after the other, whether or not they raise. -/
def runAll : List Op → Store → Store
  | [], s => s
  | op :: rest, s => runAll rest (op.run s).2

/-- At the start there is nothing. -/
def start : Store := ⟨[], [], [], []⟩

end Verif.CondHeap
