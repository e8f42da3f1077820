import Verif.Codec

/-!
# The `Activation` class

Transcription of the stateful part of `/repo/ruleskit/activation.py`: constructor, storage formats, files,
readers.  Profiling attributes (`_time_*`, `_sizeof_*`, `_n_*`), logging and `TransparentPath` are left out.

What the machine decides is an arbitrary stream: the answers to the comparisons of object sizes
(`sys.getsizeof`, `nbytes`) and the random numbers of file names.
-/

namespace Verif.Activation

open Verif Verif.Codec

/-- A path: `Activation.DEFAULT_TEMPDIR / ACTIVATION_VECTOR_{n}.txt` (line 310) or any other path. -/
inductive Path where
  | vec (n : Nat)
  | user (n : Nat)
  deriving DecidableEq, Repr

/-- `self.data` together with `self.data_format`.  After `delete` an in-memory activation has `data = None`;
`deleted c` remembers whether the format was a compressed one. -/
inductive Data where
  | bits (b : List Bool)
  | int (n : Nat)
  | text (s : List Char)
  | carr (a : Arr)
  | raw (a : Arr)
  | file (p : Path)
  | deleted (compressed : Bool)
  deriving DecidableEq, Repr

/-- `data_format == "file"`. -/
def Data.inFile : Data → Bool
  | .file _ => true
  | _ => false

/-- An unevaluated quotient `num / den` (a Python float). -/
structure Frac where
  num : Nat
  den : Nat
  deriving DecidableEq, Repr

/-- An `Activation` object: the attributes of lines 63-73 and 199-204 which are not profiling. -/
structure Act where
  data : Data
  optimize : Bool
  length : Option Nat
  nones : Option Nat
  entropy : Option Nat
  relEntropy : Option Frac
  coverage : Option Frac
  toFile : Bool
  loaded : Bool
  lasy : Bool
  deriving DecidableEq, Repr

/-- What is shared by all activations: the class attributes (lines 37-49), the disk, and the streams of
machine decisions. -/
structure World where
  dtype : DType
  willCompare : Bool
  storeRaw : Bool
  files : Path → Option Arr
  /-- `true` when the compressed form is (strictly) bigger than the other one at the `n`-th comparison -/
  sizes : Nat → Bool
  nSizes : Nat
  /-- the `n`-th number drawn by `random.randint` -/
  rands : Nat → Nat
  nRands : Nat

/-- An object and the world around it: the state of a method call. -/
structure Obj where
  act : Act
  w : World

/-- Methods of an activation. -/
abbrev Meth := Py Obj

/-- Change `self`. -/
def setSelf (f : Act → Act) : Meth Unit := Py.modify fun o => { o with act := f o.act }

/-- Change the world. -/
def setWorld (f : World → World) : Meth Unit := Py.modify fun o => { o with w := f o.w }

/-- Ask the machine whether the compressed form is the bigger one. -/
def askSize : Meth Bool := fun o =>
  (.ok (o.w.sizes o.w.nSizes), { o with w := { o.w with nSizes := o.w.nSizes + 1 } })

/-- `random.randint(0, 1e64)`, line 309. -/
def askRand : Meth Nat := fun o =>
  (.ok (o.w.rands o.w.nRands), { o with w := { o.w with nRands := o.w.nRands + 1 } })

/-- `np.count_nonzero(value == 1)` -/
def countOnes (v : Arr) : Nat := (v.filter (· == 1)).length

/-- `x / self.length`.  The length is a numpy integer only when it was read from a compressed vector
(lines 472, 489), in which case a division by zero gives an infinity and no exception. -/
def divLength (x : Nat) : Meth Frac := fun o =>
  match o.act.length with
  | none => (.error .typeError, o)
  | some 0 =>
    match o.act.data with
    | .text _ | .carr _ => (.ok ⟨x, 0⟩, o)
    | _ => (.error .zeroDivisionError, o)
  | some n => (.ok ⟨x, n⟩, o)

/-- The entropy of a compressed form, e.g. lines 381-384: `len(ast.literal_eval(compressed))` when `dtype` is
`str` (an array, got for an empty vector, is refused by `literal_eval`), `len(compressed)` otherwise. -/
def compLen (c : Compressed) (dtype : DType) : Except Err Nat :=
  match dtype, c with
  | .str, .text s => do
    match ← literalEval s with
    | .tuple l => .ok l.length
    | .int _ => .error .typeError
  | .str, .array _ => .error .valueError
  | .ndarray, .array a => .ok a.length
  | .ndarray, .text s => .ok s.length

/-- The data of a compressed form. -/
def Compressed.toData : Compressed → Data
  | .text s => .text s
  | .array a => .carr a

/-- `Activation._init_with_bitarray`, lines 343-397. -/
def initBitarray (b : List Bool) : Meth Unit := do
  setSelf fun a => { a with length := some b.length, nones := some (b.count true) }
  let o ← Py.get
  if o.act.optimize then
    let c := compress (bitarrayToRaw b) o.w.dtype
    let e ← Py.ofExcept (compLen c o.w.dtype)
    setSelf fun a => { a with entropy := some e }
    if b.length = 0 then Py.throw .zeroDivisionError
    setSelf fun a => { a with relEntropy := some ⟨e, b.length⟩ }
    if ← askSize then
      setSelf fun a => { a with data := .bits b }
    else
      setSelf fun a => { a with data := Compressed.toData c }
  else
    setSelf fun a => { a with data := .bits b }

/-- `Activation._init_with_integer`, lines 399-456. -/
def initInteger (n : Nat) (length : Option Nat) : Meth Unit := do
  match length with
  | none => Py.throw .valueError
  | some len =>
    setSelf fun a => { a with length := some len }
    let o ← Py.get
    if o.act.optimize then
      let raw ← Py.ofExcept (integerToRaw n len)
      setSelf fun a => { a with nones := some (countOnes raw) }
      let c := compress raw o.w.dtype
      let e ← Py.ofExcept (compLen c o.w.dtype)
      setSelf fun a => { a with entropy := some e }
      if len = 0 then Py.throw .zeroDivisionError
      setSelf fun a => { a with relEntropy := some ⟨e, len⟩ }
      if ← askSize then
        setSelf fun a => { a with data := .int n }
      else
        setSelf fun a => { a with data := Compressed.toData c }
    else
      setSelf fun a => { a with data := .int n }

/-- `Activation._init_with_str`, lines 458-474. -/
def initStr (s : List Char) : Meth Unit := do
  match ← Py.ofExcept (literalEval s) with
  | .int _ => Py.throw .typeError                         -- len() of a 0-d array, line 471
  | .tuple l =>
    setSelf fun a => { a with data := .text s, entropy := some l.length }
    match l.getLast? with
    | none => Py.throw .indexError
    | some n => setSelf fun a => { a with length := some n, relEntropy := some ⟨l.length, n⟩ }

/-- `Activation._init_with_compressed_array`, lines 476-491. -/
def initCArr (v : Arr) : Meth Unit := do
  setSelf fun a => { a with data := .carr v, entropy := some v.length }
  match v.getLast? with
  | none => Py.throw .indexError
  | some n => setSelf fun a => { a with length := some n, relEntropy := some ⟨v.length, n⟩ }

/-- `Activation._init_with_raw`, lines 493-564. -/
def initRaw (v : Arr) : Meth Unit := do
  let v := v.map (· % 256)                                -- lines 510-511
  setSelf fun a => { a with length := some v.length, nones := some (countOnes v) }
  let o ← Py.get
  if o.w.storeRaw then                                    -- lines 517-520
    setSelf fun a => { a with data := .raw v }
  else
    let c := compress v o.w.dtype
    let e ← Py.ofExcept (compLen c o.w.dtype)
    setSelf fun a => { a with entropy := some e }
    if v.length = 0 then Py.throw .zeroDivisionError
    setSelf fun a => { a with relEntropy := some ⟨e, v.length⟩ }
    let inbit ← if o.w.willCompare then
        (do let n ← Py.ofExcept (rawToInteger v); pure (Data.int n))
      else
        (do let b ← Py.ofExcept (rawToBitarray v); pure (Data.bits b))
    if ← askSize then                                     -- line 554: `>=` instead of `>`, same oracle
      setSelf fun a => { a with data := inbit }
    else
      setSelf fun a => { a with data := Compressed.toData c }

/-- Does the file exist? -/
def exists? (p : Path) : Meth Bool := fun o => (.ok (o.w.files p).isSome, o)

/-- The upper end of the random numbers, `int(1e64)` (line 308).  (The float 1e64 is not exactly 10^64; the
value only matters for which of two exceptions is raised.) -/
def randMax : Nat := 10 ^ 64

/-- `Activation._write`, lines 286-341.

On a name collision (only looked for when not `lasy`) the body of the loop of lines 314-325 never ends
normally: `arange` is the two-element list `[0, 1e64]`, so `arange.remove(number)` raises `ValueError` unless
`number` is one of the two ends, and in that case `random.randint(*arange)` misses an argument and raises
`TypeError`.  Hence the "keep it in RAM after 100 attempts" exit of lines 315-320 is never taken and `_write`
never returns `False`. -/
def write (v : Arr) : Meth Bool := do
  let v := v.map (· % 256)                                -- lines 301-302
  setSelf fun a => { a with length := some v.length, nones := some (countOnes v) }
  let number ← askRand
  let path := Path.vec number
  let o ← Py.get
  let taken ← exists? path
  if !o.act.lasy && taken then
    if number + 1 = randMax then Py.throw .typeError else Py.throw .valueError
  else
    setWorld fun w => { w with files := fun p => if p = path then some v else w.files p }
    setSelf fun a => { a with data := .file path }
    pure true

/-- `Activation._read`, lines 795-831, from a given path or from `self.data`. -/
def read (path : Option Path) : Meth Arr := do
  let o ← Py.get
  let p ← match path with
    | some p => pure p
    | none =>
      match o.act.data with
      | .file p => pure p
      | _ => Py.throw .valueError
  match o.w.files p with
  | none => Py.throw .fileNotFound
  | some v =>
    setSelf fun a => { a with
      nones := if a.nones.isNone then some (countOnes v) else a.nones, loaded := true }
    pure v

/-- What the constructor accepts. -/
inductive Input where
  | arr (v : Arr)
  | bits (b : List Bool)
  | int (n : Nat)
  | str (s : List Char)
  | path (p : Path)
  /-- an object of any other type -/
  | other
  deriving DecidableEq, Repr

/-- `Activation._init_with_any`, lines 257-284. -/
def initAny (inp : Input) (length : Option Nat) (toFile : Bool) : Meth Unit := do
  match inp with
  | .bits b => initBitarray b
  | .int n => initInteger n length
  | .str s => initStr s
  | .arr v =>
    if v.getLast?.any (· > 1) then initCArr v
    else
      let o ← Py.get
      if toFile && !o.w.storeRaw then
        let r ← Py.ofExcept (decompressArr v)             -- to_raw_from_any, lines 779-793
        let ok ← write r
        if ok then setSelf fun a => { a with toFile := true }
        else initRaw v                                    -- line 275: same array with to_file=False
      else initRaw v
  | .path _ | .other => Py.throw .typeError

/-- The attributes set before anything else, lines 63-114 and 199-204. -/
def blank (optimize : Bool) : Act :=
  { data := .deleted false, optimize := optimize, length := none, nones := none, entropy := none,
    relEntropy := none, coverage := none, toFile := false, loaded := false, lasy := false }

/-- `Activation.__init__`, lines 116-255.  The first branch (line 207, texts of bits and paths given as
text) compares a type with the string `"str"`, which is never true, so every text is a compressed vector. -/
def init (inp : Input) (length : Option Nat) (toFile lasy : Bool) : Meth Unit := do
  let o ← Py.get
  let (inp, length) ← match inp with
    | .int n =>
      if !o.w.willCompare then
        match length with
        | none => Py.throw .valueError                    -- lines 220-221
        | some len => pure (Input.bits (integerToBitarray n len), length)
      else pure (inp, length)
    | .bits b =>
      if o.w.willCompare then do
        setSelf fun a => { a with nones := some (b.count true) }
        let n ← Py.ofExcept (bitarrayToInteger b)
        pure (Input.int n, some (length.getD b.length))   -- lines 235-239
      else pure (inp, length)
    | _ => pure (inp, length)
  match inp with
  | .path p =>
    if lasy then
      setSelf fun a => { a with lasy := true, data := .file p }
    else
      let v ← read (some p)
      initAny (.arr v) length toFile
  | inp =>
    setSelf fun a => { a with loaded := true }
    initAny inp length toFile

/-- Calling the class: a new object, or an exception. -/
def construct (inp : Input) (optimize : Bool) (length : Option Nat) (toFile lasy : Bool) :
    Py World Act := fun w =>
  match init inp length toFile lasy ⟨blank optimize, w⟩ with
  | (.ok (), o) => (.ok o.act, o.w)
  | (.error e, o) => (.error e, o.w)

/-! ## Readers -/

/-- `_integer_to_raw()` on `self`, lines 833-882: also remembers the number of ones. -/
def selfIntegerToRaw (n : Nat) : Meth Arr := do
  let o ← Py.get
  match o.act.length with
  | none => Py.throw .typeError
  | some len =>
    let v ← Py.ofExcept (integerToRaw n len)
    setSelf fun a => { a with nones := if a.nones.isNone then some (countOnes v) else a.nones }
    pure v

/-- Remember the number of ones of a vector just decompressed, lines 970-971, 978-979, 1020-1021. -/
def noteOnes (v : Arr) : Meth Unit :=
  setSelf fun a => { a with nones := if a.nones.isNone then some (countOnes v) else a.nones }

/-- `_decompress(raw=True, out=False)` on `self`, lines 924-1055. -/
def selfDecompress : Meth Arr := do
  let o ← Py.get
  match o.act.data with
  | .text s => do
    let v ← Py.ofExcept (decompressStr s)
    noteOnes v
    pure v
  | .carr a => do
    let v ← Py.ofExcept (decompressArr a)
    noteOnes v
    pure v
  | _ => Py.throw .typeError

/-- `Activation.raw`, lines 1225-1243.  A deleted in-memory activation gives `TypeError` here; the code
returns `None` when the deleted format was "raw". -/
def raw : Meth Arr := do
  let o ← Py.get
  if !o.act.loaded then
    let v ← read none
    initAny (.arr v) none true
  let o ← Py.get
  match o.act.data with
  | .raw v => pure v
  | .bits b => pure (bitarrayToRaw b)
  | .int n => selfIntegerToRaw n
  | .file _ => read none
  | .text _ | .carr _ => selfDecompress
  | .deleted _ => Py.throw .typeError

/-- `Activation.ones`, lines 1130-1137. -/
def ones : Meth (List Nat) := do
  let v ← raw
  pure (whereOne 0 v)

/-- `Activation.nones`, lines 1139-1150. -/
def nones : Meth Nat := do
  let o ← Py.get
  if o.act.nones.isNone then
    let _ ← raw
  let o ← Py.get
  match o.act.nones with
  | none => Py.throw .typeError                           -- None / length
  | some k =>
    if o.act.coverage.isNone then
      let c ← divLength k
      setSelf fun a => { a with coverage := some c }
    pure k

/-- `Activation.coverage`, lines 1214-1221. -/
def coverage : Meth Frac := do
  let o ← Py.get
  if o.act.coverage.isNone then
    let _ ← nones
  let o ← Py.get
  match o.act.coverage with
  | none => Py.throw .typeError
  | some c => pure c

/-- `Activation.entropy`, lines 1152-1203.  `_compress` is called with its default `dtype=str`. -/
def entropy : Meth Nat := do
  let o ← Py.get
  match o.act.entropy with
  | some _ => pure ()
  | none =>
    let v ← match o.act.data with
      | .file _ => read none
      | .bits b => pure (bitarrayToRaw b)
      | .int n => selfIntegerToRaw n
      | .raw v => pure v
      | .text _ | .carr _ => Py.throw .valueError         -- line 1193
      | .deleted c => Py.throw (if c then .valueError else .typeError)
    let e ← Py.ofExcept (compLen (compress v .str) .str)
    setSelf fun a => { a with entropy := some e }
  let o ← Py.get
  match o.act.entropy with
  | none => Py.throw .typeError
  | some e =>
    if o.act.relEntropy.isNone then
      let r ← divLength e
      setSelf fun a => { a with relEntropy := some r }
    pure e

/-- `Activation.rel_entropy`, lines 1205-1212. -/
def relEntropy : Meth Frac := do
  let o ← Py.get
  if o.act.relEntropy.isNone then
    let _ ← entropy
  let o ← Py.get
  match o.act.relEntropy with
  | none => Py.throw .typeError
  | some c => pure c

/-- `_decompress(raw=False, out=False)` as used by `as_bitarray` and `as_integer`, lines 1282-1286 and
1323-1327: the class attribute `WILL_COMPARE` is overwritten during the call and put back after it, but not
when the call raises.  The value returned is the raw vector when it was taken to be raw already (line 980),
which `none` stands for; otherwise it is converted (lines 1026-1040) by `conv`. -/
def viaDecompress {α} (flag : Bool) (conv : Arr → Except Err α) : Meth (Option α) := do
  let o ← Py.get
  setWorld fun w => { w with willCompare := flag }
  let v ← selfDecompress
  let alreadyRaw := match o.act.data with
    | .carr a => a.getLast?.all (· ≤ 1)
    | _ => false
  let r ← if alreadyRaw then pure none
    else (do let x ← Py.ofExcept (conv v); pure (some x))
  setWorld fun w => { w with willCompare := o.w.willCompare }
  pure r

/-- `Activation.as_bitarray`, lines 1245-1288.  `none`: an object of another type (a numpy array) is
returned. -/
def asBitarray : Meth (Option (List Bool)) := do
  let o ← Py.get
  match o.act.data with
  | .file _ =>
    let v ← read none
    let b ← Py.ofExcept (rawToBitarray v)
    pure (some b)
  | .raw v =>
    let b ← Py.ofExcept (rawToBitarray v)
    pure (some b)
  | .bits b => pure (some b)
  | .int n =>
    match o.act.length with
    | none => Py.throw .typeError
    | some len => pure (some (integerToBitarray n len))
  | .text _ | .carr _ => viaDecompress false rawToBitarray
  | .deleted c =>
    if c then setWorld fun w => { w with willCompare := false }
    Py.throw .typeError

/-- `Activation.as_integer`, lines 1290-1329. -/
def asInteger : Meth (Option Nat) := do
  let o ← Py.get
  match o.act.data with
  | .file _ =>
    let v ← read none
    let n ← Py.ofExcept (rawToInteger v)
    pure (some n)
  | .raw v =>
    let n ← Py.ofExcept (rawToInteger v)
    pure (some n)
  | .int n => pure (some n)
  | .bits b =>
    let n ← Py.ofExcept (bitarrayToInteger b)
    pure (some n)
  | .text _ | .carr _ => viaDecompress true rawToInteger
  | .deleted c =>
    if c then setWorld fun w => { w with willCompare := true }
    Py.throw .typeError

/-- The array given by `np.array(...)` of a compressed form. -/
def litArray (s : List Char) : Except Err Arr := do
  match ← literalEval s with
  | .tuple l => .ok l
  | .int n => .ok [n]                                     -- a 0-d array; cannot happen for a stored text

/-- The compressed array of a raw vector.  Line 1343 etc.: `_compress(value, dtype=np.ndarray)`. -/
def compressToArray (v : Arr) : Except Err Arr :=
  match compress v .ndarray with
  | .array a => .ok a
  | .text _ => .error .typeError                          -- never: dtype is np.ndarray

/-- `Activation.as_compressed_array`, lines 1337-1390. -/
def asCompressedArray : Meth Arr := do
  let o ← Py.get
  let c ← match o.act.data with
    | .raw v => Py.ofExcept (compressToArray v)
    | .carr a => pure a
    | .text s => Py.ofExcept (litArray s)
    | .int _ | .bits _ => (do let v ← raw; Py.ofExcept (compressToArray v))
    | .file _ => (do let v ← read none; Py.ofExcept (compressToArray v))
    | .deleted _ => Py.throw .attributeError
  setSelf fun a => { a with entropy := some c.length }
  let o ← Py.get
  if o.act.relEntropy.isNone then
    let r ← divLength c.length
    setSelf fun a => { a with relEntropy := some r }
  pure c

/-- The compressed text of a raw vector.  An empty vector gives an array (line 1081), which
`ast.literal_eval` refuses at line 1441. -/
def compressToText (v : Arr) : Except Err (List Char) :=
  match compress v .str with
  | .text s => .ok s
  | .array _ => .error .valueError

/-- `Activation.as_compressed_str` and `as_compressed`, lines 1331-1335 and 1392-1444. -/
def asCompressedStr : Meth (List Char) := do
  let o ← Py.get
  let s ← match o.act.data with
    | .raw v => Py.ofExcept (compressToText v)
    | .carr a => pure (render a)
    | .text s => pure s
    | .int _ | .bits _ => (do let v ← raw; Py.ofExcept (compressToText v))
    | .file _ => (do let v ← read none; Py.ofExcept (compressToText v))
    | .deleted _ => Py.throw .attributeError
  let e ← Py.ofExcept (compLen (.text s) .str)
  setSelf fun a => { a with entropy := some e }
  let o ← Py.get
  if o.act.relEntropy.isNone then
    let r ← divLength e
    setSelf fun a => { a with relEntropy := some r }
  pure s

/-! ## Methods which change the object -/

/-- `Activation.clear`, lines 738-742. -/
def clear : Meth Unit := do
  let o ← Py.get
  setSelf fun a => { a with length := none, nones := none, entropy := none, relEntropy := none,
                            coverage := none, data := .deleted false }
  match o.act.length with
  | none => Py.throw .typeError                           -- np.zeros(None) is 0-d; len() of it raises
  | some n => initRaw (List.replicate n 0)

/-- `Activation.delete`, lines 744-752. -/
def delete : Meth Unit := do
  let o ← Py.get
  match o.act.data with
  | .file p =>
    setWorld fun w => { w with files := fun q => if q = p then none else w.files q }
  | .text _ | .carr _ | .deleted true => setSelf fun a => { a with data := .deleted true }
  | _ => setSelf fun a => { a with data := .deleted false }

/-- `Activation.clean_files`, lines 53-59. -/
def cleanFiles : Py World Unit := Py.modify fun w =>
  { w with files := fun p => match p with
      | .vec _ => none
      | .user _ => w.files p }

end Verif.Activation
