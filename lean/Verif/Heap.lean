import Verif.Activation

/-!
# Operations on several activations

Transcription of the operators and of the remaining methods of `/repo/ruleskit/activation.py` (lines 566-775).
A program holds many `Activation` objects at the same time; they are designated by their number in the heap.
Objects are never removed from the heap (Python's garbage collection is not observable: `Activation` has no
`__del__`).
-/

namespace Verif.Activation

open Verif Verif.Codec

/-- All activations of a program and what they share. -/
structure Heap where
  objs : List Act
  w : World

/-- Call a method on object `i`.  A number designating no object cannot be written in Python; the model
raises. -/
def onObj {α} (i : Nat) (m : Meth α) : Py Heap α := fun h =>
  match h.objs[i]? with
  | none => (.error .attributeError, h)
  | some a =>
    let (r, o) := m ⟨a, h.w⟩
    (r, ⟨h.objs.set i o.act, o.w⟩)

/-- Look at the attributes of object `i`. -/
def look (i : Nat) : Py Heap Act := fun h =>
  match h.objs[i]? with
  | none => (.error .attributeError, h)
  | some a => (.ok a, h)

/-- `Activation(inp, optimize=.., length=.., to_file=.., lasy=..)`: the number of the new object. -/
def new (inp : Input) (optimize : Bool) (length : Option Nat) (toFile lasy : Bool) : Py Heap Nat := fun h =>
  match construct inp optimize length toFile lasy h.w with
  | (.ok a, w) => (.ok h.objs.length, ⟨h.objs ++ [a], w⟩)
  | (.error e, w) => (.error e, ⟨h.objs, w⟩)

/-- An element-wise numpy operation on two vectors, with broadcasting of one-element vectors. -/
def elementwise (f : Nat → Nat → Nat) (x y : Arr) : Except Err Arr :=
  if x.length = y.length then .ok (List.zipWith f x y)
  else match x, y with
    | [a], _ => .ok (y.map (f a))
    | _, [b] => .ok (x.map (f · b))
    | _, _ => .error .valueError

/-- The three binary operators. -/
inductive Logic where
  | and | or | xor
  deriving DecidableEq, Repr

/-- On bits: `bitarray.__and__` etc. -/
def Logic.bool : Logic → Bool → Bool → Bool
  | .and => (· && ·)
  | .or => (· || ·)
  | .xor => fun a b => a != b

/-- On Python integers. -/
def Logic.int : Logic → Nat → Nat → Nat
  | .and => (· &&& ·)
  | .or => (· ||| ·)
  | .xor => (· ^^^ ·)

/-- On arrays of bytes: `*` (line 580), `|` (line 640), `^` (line 701). -/
def Logic.byte : Logic → Nat → Nat → Nat
  | .and => fun a b => a * b % 256
  | .or => (· ||| ·)
  | .xor => (· ^^^ ·)

/-- `bitarray` refuses operands of different lengths. -/
def bitarrayOp (k : Logic) (x y : List Bool) : Except Err (List Bool) :=
  if x.length = y.length then .ok (List.zipWith k.bool x y) else .error .valueError

/-- `Activation.__and__` (lines 568-583), `__or__` (628-643), `__xor__` (689-704). -/
def binop (k : Logic) (i j : Nat) : Py Heap Nat := do
  let a ← look i
  let b ← look j
  if a.length ≠ b.length then Py.throw .valueError
  else match a.data, b.data with
    | .bits x, .bits y => do
      let z ← Py.ofExcept (bitarrayOp k x y)
      new (.bits z) (a.optimize && b.optimize) none false false
    | .int x, .int y => new (.int (k.int x y)) (a.optimize && b.optimize) none false false
    | _, _ => do
      let x ← onObj i raw
      let y ← onObj j raw
      let z ← Py.ofExcept (elementwise k.byte x y)
      let a ← look i
      let b ← look j
      new (.arr z) (a.optimize && b.optimize) none (a.data.inFile && b.data.inFile) false

/-- What the machine answers during a `multi_logical_*` call: free memory before and after reading the first
vector, `Activation.NCPUS`, and whether numpy runs out of memory when stacking everything (`oom`) or two
vectors (`oomPairs`). -/
structure Mem where
  before : Int
  after : Int
  ncpus : Nat
  oom : Bool
  oomPairs : Bool

/-- `np.vstack(rows)` of one-dimensional vectors: all must have the same length. -/
def vstack (rows : List Arr) : Except Err (List Arr) :=
  match rows with
  | [] => .error .valueError
  | r :: rest => if rest.all (fun s => s.length == r.length) then .ok rows else .error .valueError

/-- `.all(axis=0).astype(np.ubyte)` of two rows. -/
def andRow (x y : Arr) : Arr := List.zipWith (fun a b => if a ≠ 0 ∧ b ≠ 0 then 1 else 0) x y

/-- `.any(axis=0).astype(np.ubyte)` of two rows. -/
def orRow (x y : Arr) : Arr := List.zipWith (fun a b => if a ≠ 0 ∨ b ≠ 0 then 1 else 0) x y

/-- Non-zero entries become 1. -/
def truth (x : Arr) : Arr := x.map (fun a => if a ≠ 0 then 1 else 0)

/-- `.all(axis=0)` (`isAnd`) or `.any(axis=0)` of the rows of a matrix, then `.astype(np.ubyte)`. -/
def columns (isAnd : Bool) (rows : List Arr) : Arr :=
  match rows with
  | [] => []
  | r :: rest => rest.foldl (if isAnd then andRow else orRow) (truth r)

/-- `[a.raw for a in acs]` -/
def raws : List Nat → Py Heap (List Arr)
  | [] => pure []
  | i :: rest => do
    let r ← onObj i raw
    let rs ← raws rest
    pure (r :: rs)

/-- The loop over `acs[1:]`, lines 607-608, 617-618, 668-669, 678-679. -/
def pairwise (isAnd : Bool) (mem : Mem) : List Nat → Arr → Py Heap Arr
  | [], res => pure res
  | i :: rest, res => do
    let r ← onObj i raw
    if mem.oomPairs then Py.throw .memoryError
    else do
      let rows ← Py.ofExcept (vstack [res, r])
      pairwise isAnd mem rest (columns isAnd rows)

/-- `Activation.multi_logical_and(acs, asarray=True)` (lines 585-626, `isAnd`) and
`multi_logical_or(acs, asarray=True)` (lines 645-687).  Sizes are compared as exact numbers. -/
def multiArr (isAnd : Bool) (mem : Mem) (acs : List Nat) : Py Heap Arr := do
  match acs with
  | [] => Py.throw .indexError
  | i :: rest => do
    let _ ← onObj i raw
    let single := mem.before - mem.after
    if mem.before < 2 * single then Py.throw .memoryError
    else if 10 * mem.before < 11 * (single * acs.length * mem.ncpus) then do
      let res ← onObj i raw
      pairwise isAnd mem rest res
    else do
      let rows ← raws acs
      if mem.oom then do
        let res ← onObj i raw
        pairwise isAnd mem rest res
      else do
        let rows ← Py.ofExcept (vstack rows)
        pure (columns isAnd rows)

/-- `all([a.optimize for a in acs])` and `all([a.data_format == "file" for a in acs])`. -/
def allOptions : List Nat → Py Heap (Bool × Bool)
  | [] => pure (true, true)
  | i :: rest => do
    let a ← look i
    let (o, f) ← allOptions rest
    pure (a.optimize && o, a.data.inFile && f)

/-- `multi_logical_and` / `multi_logical_or` with `asarray=False`. -/
def multi (isAnd : Bool) (mem : Mem) (acs : List Nat) : Py Heap Nat := do
  let res ← multiArr isAnd mem acs
  let (o, f) ← allOptions acs
  new (.arr res) o none f false

/-- `-(x - 1)` on bytes, line 713. -/
def negMinusOne (x : Nat) : Nat := (256 - (x + 255) % 256) % 256

/-- What `multi_logical_xor` returns: an array or an activation. -/
inductive ArrOrAct where
  | arr (v : Arr)
  | act (i : Nat)
  deriving DecidableEq, Repr

/-- `Activation.multi_logical_xor`, lines 706-721. -/
def multiXor (mem mem' : Mem) (acs : List Nat) (asarray : Bool) : Py Heap ArrOrAct := do
  match acs with
  | [i] => do
    let v ← onObj i raw
    let a ← look i
    let n ← new (.arr v) a.optimize none a.data.inFile false
    pure (.act n)
  | _ => do
    let lor ← multiArr false mem acs
    let land ← multiArr true mem' acs
    let res ← Py.ofExcept (elementwise (· &&& ·) lor (land.map negMinusOne))
    if asarray then pure (.arr res)
    else do
      let (o, f) ← allOptions acs
      let n ← new (.arr res) o none f false
      pure (.act n)

/-- `Activation.__add__`, lines 723-725: `self or other`, decided by `__len__` (line 754). -/
def add (i j : Nat) : Py Heap Nat := do
  let a ← look i
  match a.length with
  | none => Py.throw .typeError
  | some 0 => pure j
  | some _ => pure i

/-- `Activation.__sub__`, lines 727-729. -/
def sub (i j : Nat) : Py Heap Nat := do
  let t ← binop .xor i j
  binop .and t i

/-- `Activation.__copy__`, lines 733-736. -/
def copy (i : Nat) : Py Heap Nat := do
  let a ← look i
  match a.data with
  | .int n => new (.int n) a.optimize a.length false false
  | .bits b => new (.bits b) a.optimize none false false
  | .text s => new (.str s) a.optimize none false false
  | .carr v => new (.arr v) a.optimize none false false
  | .raw v => new (.arr v) a.optimize none false false
  | .file p => new (.path p) a.optimize none true false
  | .deleted _ => new .other a.optimize none false false

/-- `Activation.__contains__`, lines 758-764. -/
def contains (i j : Nat) : Py Heap Bool := do
  let t ← binop .and i j
  let n ← onObj t nones
  onObj t delete
  let a ← onObj i nones
  let b ← onObj j nones
  pure (!(n < min a b))

/-- `Activation.get_correlation`, lines 766-775.  Vectors of different real lengths (impossible for two
activations whose `length` attributes are right and equal) count as having nothing in common. -/
def correlation (i j : Nat) : Py Heap Frac := do
  let a ← look i
  let b ← look j
  match a.length, b.length with
  | some m, some n =>
    if m ≠ n then Py.throw .valueError
    else do
      let x ← onObj i raw
      let y ← onObj j raw
      let common := if x.length = y.length then
          ((List.zipWith (fun p q => (p == q : Bool)) x y).filter id).length else 0
      if m = 0 then Py.throw .zeroDivisionError
      else pure ⟨common, m⟩
  | _, _ => Py.throw .typeError

end Verif.Activation
