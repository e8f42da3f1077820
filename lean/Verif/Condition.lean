import Verif.Py
import Verif.Num
import Verif.Codec
import Mathlib.Data.List.Dedup
import Mathlib.Data.List.Sort

/-!
# Conditions

Model of `/repo/ruleskit/condition.py`: `Condition` and `HyperrectangleCondition`.  A condition is a value here;
conditions as objects which share lists are in `CondHeap.lean`.
-/

namespace Verif

/-- A Python object given by a caller where the code checks types. -/
inductive V where
  | int (i : Int)
  | bool (b : Bool)
  | float (x : Num)
  | str (s : String)
  /-- any other object -/
  | other
  deriving DecidableEq, Repr

namespace V

/-- `isinstance(a, Number)` and the value as a number.  Simplification: no complex numbers. -/
def num? : V → Option Num
  | int i => some (.fin i)
  | bool b => some (.fin (if b then 1 else 0))
  | float x => some x
  | _ => none

/-- `np.issubdtype(type(a), np.integer)` (false of `bool`) and the value as an integer -/
def int? : V → Option Int
  | int i => some i
  | _ => none

/-- `isinstance(a, str)` and the value as a string -/
def str? : V → Option String
  | str s => some s
  | _ => none

end V

/-- `if any([not … for a in l]): raise TypeError`, and the values otherwise.
`/repo/ruleskit/condition.py` lines 34-37, 153-158. -/
def checkAll {α} (f : V → Option α) (l : List V) : Except Err (List α) :=
  match l.mapM f with
  | some r => .ok r
  | none => .error .typeError

/-- A value of `HyperrectangleCondition`: the attributes `_features_indexes`, `_bmins`, `_bmaxs`,
`_features_names` (`None` for an empty condition) and `impossible`.  `/repo/ruleskit/condition.py` lines 28-42, 125-178. -/
structure Cond where
  indexes : Option (List Int)
  bmins : Option (List Num)
  bmaxs : Option (List Num)
  names : Option (List String)
  impossible : Bool
  deriving DecidableEq, Repr

namespace Cond

/-- `str(i)` of an `int`, used in `"X_" + str(i)`.  `/repo/ruleskit/condition.py` line 174. -/
def defaultName (i : Int) : String :=
  match i with
  | .ofNat n => String.ofList ('X' :: '_' :: Codec.digits n)
  | .negSucc n => String.ofList ('X' :: '_' :: '-' :: Codec.digits (n + 1))

/-- `[x for _, x in sorted(zip(keys, values))]`, `/repo/ruleskit/condition.py` lines 389-397.  Simplification: pairs
are compared by their first component only; the keys are distinct, so that the second one never matters.  Any stable sort
gives the same list as Python's `sorted`; this one is insertion sort. -/
def sortBy {κ α} [LE κ] [DecidableRel (α := κ) (· ≤ ·)] (keys : List κ) (vals : List α) : List α :=
  ((keys.zip vals).insertionSort fun a b => a.1 ≤ b.1).map (·.2)

/-- `sorted(keys)` -/
def sorted {κ} [LE κ] [DecidableRel (α := κ) (· ≤ ·)] (keys : List κ) : List κ :=
  keys.insertionSort fun a b => a ≤ b

/-- `len(self)`, `/repo/ruleskit/condition.py` lines 374-384 -/
def length (c : Cond) : Nat :=
  match c.names, c.indexes, c.bmins, c.bmaxs with
  | some n, _, _, _ => n.length
  | none, some i, _, _ => i.length
  | none, none, some b, _ => b.length
  | none, none, none, some b => b.length
  | none, none, none, none => 0

/-- Using an attribute which must be a list: `None` raises `TypeError`. -/
def need {α} : Option (List α) → Except Err (List α)
  | some l => .ok l
  | none => .error .typeError

/-- `sort`, `/repo/ruleskit/condition.py` lines 386-402.  `by_` is the class attribute `SORT_ACCORDING_TO`. -/
def sort (by_ : String) (c : Cond) : Except Err Cond :=
  if c.length > 1 then do
    if by_ = "index" then
      let idx ← need c.indexes
      let lo ← need c.bmins
      let hi ← need c.bmaxs
      let na ← need c.names
      .ok { c with
        bmins := some (sortBy idx lo)
        bmaxs := some (sortBy idx hi)
        names := some (sortBy idx na)
        indexes := some (sorted idx) }
    else if by_ = "name" then
      let na ← need c.names
      let lo ← need c.bmins
      let hi ← need c.bmaxs
      let idx ← need c.indexes
      .ok { c with
        bmins := some (sortBy na lo)
        bmaxs := some (sortBy na hi)
        indexes := some (sortBy na idx)
        names := some (sorted na) }
    else .error .valueError
  else .ok c

/-- `any([a > b for a, b in zip(bmins, bmaxs)])`, `/repo/ruleskit/condition.py` line 164 -/
def someInverted (lo hi : List Num) : Bool := (lo.zip hi).any fun p => p.2.lt p.1

/-- `HyperrectangleCondition.__init__` and, inside it, `Condition.__init__`.
`/repo/ruleskit/condition.py` lines 125-178 and 28-42. -/
def init (by_ : String) (indexes bmins bmaxs names : Option (List V)) (empty sort_ : Bool) : Except Err Cond :=
  if empty then .ok { indexes := none, bmins := none, bmaxs := none, names := none, impossible := false }
  else
    match bmins, bmaxs with
    | none, _ => .error .valueError
    | some _, none => .error .valueError
    | some lo, some hi => do
      let idx ← match indexes, names with
        | some i, _ => Except.ok i
        | none, none => .error .valueError
        | none, some n => .ok ((List.range n.length).map fun k : Nat => V.int k)
      if hi.length ≠ idx.length then .error .valueError
      if lo.length ≠ idx.length then .error .valueError
      if (match names with | some n => decide (n.length ≠ idx.length) | none => false) then .error .valueError
      let given ← match names with
        | some n => (checkAll V.str? n).map some
        | none => .ok none
      let lo ← checkAll V.num? lo
      let hi ← checkAll V.num? hi
      let idx ← checkAll V.int? idx
      if ¬ idx.Nodup then .error .duplicatedFeatures
      let na := match given with
        | some n => n
        | none => idx.map defaultName
      if ¬ na.Nodup then .error .duplicatedFeatures
      let c : Cond :=
        { indexes := some idx, bmins := some lo, bmaxs := some hi, names := some na,
          impossible := someInverted lo hi }
      if sort_ then c.sort by_ else .ok c

/-- The constructor called with lists of the right types, as `__and__` does. -/
def initTyped (by_ : String) (indexes : Option (List Int)) (bmins bmaxs : Option (List Num))
    (names : Option (List String)) : Except Err Cond :=
  init by_ (indexes.map (·.map V.int)) (bmins.map (·.map V.float)) (bmaxs.map (·.map V.float))
    (names.map (·.map V.str)) false true

/-- `l[i]` for a position which is not negative -/
def item {α} (l : List α) (i : Nat) : Except Err α :=
  match l[i]? with
  | some x => .ok x
  | none => .error .indexError

/-- `[l[i] for i in range(len(l)) if i not in positions]`, `/repo/ruleskit/condition.py` lines 246-260 -/
def without {α} (l : List α) (positions : List Nat) : List α :=
  (l.zipIdx.filter fun p => decide (p.2 ∉ positions)).map (·.1)

/-- `for i, index in enumerate(positions): l[index] = values[i]`, `/repo/ruleskit/condition.py` lines 269-271 -/
def assign {α} (l : List α) (positions : List Nat) (values : List α) : List α :=
  (positions.zip values).foldl (fun l p => l.set p.1 p.2) l

/-- `__and__`, `/repo/ruleskit/condition.py` lines 180-289.  The lists of `other` are asked for at the beginning: a
missing one raises `TypeError` on each path. -/
def and (by_ : String) (self other : Cond) : Except Err Cond := do
  let clone ← initTyped by_ self.indexes self.bmins self.bmaxs self.names
  let sNames ← need clone.names
  let sIdx ← need clone.indexes
  let sLo ← need clone.bmins
  let sHi ← need clone.bmaxs
  let oNames ← need other.names
  let oIdx ← need other.indexes
  let oLo ← need other.bmins
  let oHi ← need other.bmaxs
  let common := sNames.filter fun f => decide (f ∈ oNames)
  let (newLo, newHi, rest) ←
    if common.length > 0 then do
      let posS := common.map fun f => sNames.idxOf f
      let posO := common.map fun f => oNames.idxOf f
      let idxS ← posS.mapM (item sIdx)
      let loS ← posS.mapM (item sLo)
      let hiS ← posS.mapM (item sHi)
      let idxO ← posO.mapM (item oIdx)
      let loO ← posO.mapM (item oLo)
      let hiO ← posO.mapM (item oHi)
      if idxS ≠ idxO then .error .indexError
      let lo := List.zipWith Num.max loS loO
      let hi := List.zipWith Num.min hiS hiO
      let rest ← initTyped by_ (some (without oIdx posO)) (some (without oLo posO)) (some (without oHi posO))
        (some (oNames.filter fun f => decide (f ∉ common)))
      Except.ok (assign sLo posS lo, assign sHi posS hi, rest)
    else .ok (sLo, sHi, other)
  let rIdx ← need rest.indexes
  let rLo ← need rest.bmins
  let rHi ← need rest.bmaxs
  let rNames ← need rest.names
  let idx := sIdx ++ rIdx
  if ¬ idx.Nodup then .error .indexError
  initTyped by_ (some idx) (some (newLo ++ rLo)) (some (newHi ++ rHi)) (some (sNames ++ rNames))

/-! ## Setters -/

/-- What is assigned to an attribute: a list, or a text given to `ast.literal_eval`, represented by what
`literal_eval` makes of it. -/
inductive Arg (α : Type) where
  | list (l : List α)
  | text (parsed : Except Err (List α))

/-- `if isinstance(value, str): value = ast.literal_eval(value)` -/
def Arg.value {α} : Arg α → Except Err (List α)
  | .list l => .ok l
  | .text p => p

/-- `int(v)`; `/repo/ruleskit/condition.py` lines 319, 331 -/
def toInt : Num → Except Err Num
  | .fin q => .ok (.fin (Num.trunc q))
  | .nan => .error .valueError
  | _ => .error .overflowError

/-- `if isinstance(value, str): value = [int(v) for v in ast.literal_eval(value)]`,
`/repo/ruleskit/condition.py` lines 318-319, 330-331 -/
def Arg.bounds : Arg Num → Except Err (List Num)
  | .list l => .ok l
  | .text p => p >>= fun l => l.mapM toInt

/-- `features_indexes` setter, `/repo/ruleskit/condition.py` lines 65-73.  Simplification: lists of integers only. -/
def setIndexes (a : Arg Int) : Py Cond Unit := do
  let value ← Py.ofExcept a.value
  if ¬ value.Nodup then Py.throw .duplicatedFeatures
  let self ← Py.get
  if self.length > 0 ∧ self.length ≠ value.length then Py.throw .indexError
  Py.modify fun c => { c with indexes := some value }

/-- `features_names` setter, `/repo/ruleskit/condition.py` lines 307-314.  Simplification: lists of strings only. -/
def setNames (a : Arg String) : Py Cond Unit := do
  let value ← Py.ofExcept a.value
  if ¬ value.Nodup then Py.throw .duplicatedFeatures
  let self ← Py.get
  if self.length > 0 ∧ self.length ≠ value.length then Py.throw .indexError
  Py.modify fun c => { c with names := some value }

/-- `if any([a > b for a, b in zip(self.bmins, self.bmaxs)]): self.impossible = True`,
`/repo/ruleskit/condition.py` lines 323-325, 335-337.  An attribute which is `None` raises `TypeError`. -/
def checkImpossible : Py Cond Unit := do
  let self ← Py.get
  let lo ← Py.ofExcept (need self.bmins)
  let hi ← Py.ofExcept (need self.bmaxs)
  if someInverted lo hi then Py.modify fun c => { c with impossible := true }

/-- `bmins` setter, `/repo/ruleskit/condition.py` lines 316-325 -/
def setBmins (a : Arg Num) : Py Cond Unit := do
  let value ← Py.ofExcept a.bounds
  let self ← Py.get
  if self.length > 0 ∧ self.length ≠ value.length then Py.throw .indexError
  Py.modify fun c => { c with bmins := some value }
  checkImpossible

/-- `bmaxs` setter, `/repo/ruleskit/condition.py` lines 327-337 -/
def setBmaxs (a : Arg Num) : Py Cond Unit := do
  let value ← Py.ofExcept a.bounds
  let self ← Py.get
  if self.length > 0 ∧ self.length ≠ value.length then Py.throw .indexError
  Py.modify fun c => { c with bmaxs := some value }
  checkImpossible

/-- `normalize_features_indexes`, `/repo/ruleskit/condition.py` lines 97-100 -/
def normalizeIndexes : Py Cond Unit := do
  let self ← Py.get
  let idx ← Py.ofExcept (need self.indexes)
  Py.modify fun c => { c with indexes := some ((List.range idx.length).map Int.ofNat) }

/-! ## Reading -/

/-- `l[i]` of a Python list or numpy axis of length `n`: negative positions count from the end. -/
def wrap (n : Nat) (i : Int) : Option Nat :=
  if 0 ≤ i then (if i < n then some i.toNat else none)
  else if -(n : Int) ≤ i then some (i + n).toNat else none

/-- `l[i]` -/
def pyItem {α} (l : List α) (i : Int) : Except Err α :=
  match wrap l.length i with
  | some k => item l k
  | none => .error .indexError

/-- `__getitem__`, `/repo/ruleskit/condition.py` lines 366-372 -/
def getitem (c : Cond) (i : Int) : Except Err (String × Int × Num × Num) := do
  let n ← pyItem (← need c.names) i
  let j ← pyItem (← need c.indexes) i
  let lo ← pyItem (← need c.bmins) i
  let hi ← pyItem (← need c.bmaxs) i
  .ok (n, j, lo, hi)

end Cond

/-- A 2-dimensional numpy array: rows of `ncols` numbers. -/
structure Mat where
  ncols : Nat
  rows : List (List Num)

/-- A pandas DataFrame: names of the columns and rows. -/
structure Frame where
  columns : List String
  rows : List (List Num)

namespace Cond

/-- `xs[:, j]` -/
def Mat.column (xs : Mat) (j : Int) : Except Err (List Num) :=
  match wrap xs.ncols j with
  | some k => .ok (xs.rows.map fun r => (r[k]?).getD .nan)
  | none => .error .indexError

/-- `xs[n]` for a DataFrame whose column names are distinct -/
def Frame.column (xs : Frame) (n : String) : Except Err (List Num) :=
  if n ∈ xs.columns then .ok (xs.rows.map fun r => (r[xs.columns.idxOf n]?).getD .nan)
  else .error .keyError

/-- `mask &= test(column)` for an array of 0 and 1 -/
def maskWith (mask : List Nat) (test : Num → Bool) (col : List Num) : List Nat :=
  List.zipWith (fun m x => m &&& (test x).toNat) mask col

/-- Body of the loops of `evaluate`, `/repo/ruleskit/condition.py` lines 438-440, 447-449: the three names `geq_min`,
`leq_min` and `not_nan` are bound to one and the same array. -/
def evalStep (c : Cond) (mask : List Nat) (i : Nat) (column : Except Err (List Num)) : Except Err (List Nat) := do
  let col ← column
  let lo ← item (← need c.bmins) i
  let mask := maskWith mask (fun x => lo.le x) col
  let hi ← item (← need c.bmaxs) i
  let mask := maskWith mask (fun x => x.le hi) col
  .ok (maskWith mask Num.isFinite col)

/-- `geq_min & leq_min & not_nan` -/
def conj (a b : List Nat) : List Nat := List.zipWith (· &&& ·) a b

/-- `evaluate` of a numpy array, `/repo/ruleskit/condition.py` lines 430-441 -/
def evaluate (c : Cond) (xs : Mat) : Except Err (List Nat) :=
  if c.impossible then .ok (List.replicate xs.rows.length 0)
  else do
    let idx ← need c.indexes
    if idx.any fun i => decide (i ≥ xs.ncols) then .error .indexError
    let mask ← idx.zipIdx.foldlM (fun mask p => evalStep c mask p.2 (Mat.column xs p.1))
      (List.replicate xs.rows.length 1)
    .ok (conj (conj mask mask) mask)

/-- `evaluate` of a DataFrame, `/repo/ruleskit/condition.py` lines 430-431, 442-454.  When there is no feature the mask is a
numpy array and `.values` raises `AttributeError`. -/
def evaluateFrame (c : Cond) (xs : Frame) : Except Err (List Nat) :=
  if c.impossible then .ok (List.replicate xs.rows.length 0)
  else do
    let na ← need c.names
    if na.any fun n => decide (n ∉ xs.columns) then .error .indexError
    let mask ← na.zipIdx.foldlM (fun mask p => evalStep c mask p.2 (Frame.column xs p.1))
      (List.replicate xs.rows.length 1)
    if na = [] then .error .attributeError
    .ok (conj (conj mask mask) mask)

/-! ## Equality -/

/-- What the hash functions of Python are, as far as the code depends on them.  `hash` of strings is randomised at each
start of the interpreter; of tuples and frozensets it is a fixed function of the hashes of the elements. -/
structure Hasher where
  str : String → Int
  /-- `hash` of numbers which are not integers -/
  float : Num → Int
  tuple : List Int → Int
  frozenset : List Int → Int
  /-- the hash of a frozenset does not depend on the order of its elements -/
  frozenset_perm : ∀ a b, a.Perm b → frozenset a = frozenset b

/-- `hash` of a number.  For an integer CPython takes the absolute value modulo 2^61 - 1 with the sign of the integer, and
replaces -1 (reserved for errors) by -2. -/
def Hasher.num (H : Hasher) : Num → Int
  | .fin q =>
    if q.den = 1 then
      let h := q.num.sign * ((q.num.natAbs % (2 ^ 61 - 1) : Nat) : Int)
      if h = -1 then -2 else h
    else H.float (.fin q)
  | x => H.float x

/-- `to_hash` without its leading `"c"`, `/repo/ruleskit/condition.py` lines 357-361 -/
def toHash (c : Cond) : Except Err (List (String × Num × Num)) := do
  let na ← need c.names
  na.zipIdx.mapM fun p => do
    let lo ← item (← need c.bmins) p.2
    let hi ← item (← need c.bmaxs) p.2
    .ok (p.1, lo, hi)

/-- `__hash__`, `/repo/ruleskit/condition.py` lines 363-364: the hash of the frozenset of `"c"` and of the triples. -/
def hash (H : Hasher) (c : Cond) : Except Err Int := do
  let t ← c.toHash
  .ok (H.frozenset (H.str "c" :: t.dedup.map fun x => H.tuple [H.str x.1, H.num x.2.1, H.num x.2.2]))

/-- `__eq__`, `/repo/ruleskit/condition.py` lines 352-355 -/
def eq (H : Hasher) (a b : Cond) : Except Err Bool := do
  let x ← a.hash H
  let y ← b.hash H
  .ok (decide (x = y))

end Cond

end Verif
