import Verif.Heap

/-!
# Model of the profiling figures of an activation

`Activation` carries figures of its own cost: sizes (`sizeof_*`) and times (`time_*`).  Each is read through a
property which, when the figure is missing (`-1`) and the class attribute `FORCE_STAT` is set, makes the object
do the work again so that the figure gets known.  The figures themselves (seconds and megabytes of a machine) are
not modelled; what the properties do to the object and to the files is.
-/

namespace Verif.Activation

open Verif Verif.Codec

/-- The formats between which conversions are timed. -/
inductive Form where
  | raw | bitarray | integer | compressed
  deriving DecidableEq, Repr

/-- The profiling figures which can force work. -/
inductive Gauge where
  /-- `sizeof_path`, lines 1446-1458 -/
  | sizeofPath
  /-- `sizeof_file`, lines 1460-1472 -/
  | sizeofFile
  /-- `sizeof_raw`, lines 1474-1481 -/
  | sizeofRaw
  /-- `sizeof_bitarray`, lines 1483-1490 -/
  | sizeofBitarray
  /-- `sizeof_integer`, lines 1492-1499 -/
  | sizeofInteger
  /-- `sizeof_compressed_array`, lines 1501-1508 -/
  | sizeofCompressedArray
  /-- `sizeof_compressed_str`, lines 1510-1517 -/
  | sizeofCompressedStr
  /-- `time_write`, lines 1519-1531 -/
  | timeWrite
  /-- `time_read`, lines 1533-1546 -/
  | timeRead
  /-- the twelve `time_<src>_to_<dst>`, lines 1548-1735 (`src` differs from `dst` there) -/
  | time (src dst : Form)
  deriving DecidableEq, Repr

/-- `self.data.unlink()`, e.g. line 1455. -/
def unlink : Meth Unit := do
  let o ← Py.get
  match o.act.data with
  | .file p =>
    match o.w.files p with
    | none => Py.throw .fileNotFound
    | some _ => setWorld fun w => { w with files := fun q => if q = p then none else w.files q }
  | _ => Py.throw .attributeError

/-- Lines 1452-1457 (also 1466-1471, 1525-1530, 1539-1545): write the vector to a file, read it again for
`time_read` only, remove the file, put back what was stored.  `self.data` and `self.data_format` are one value in
this model. -/
def measureFile (readBack : Bool) : Meth Unit := do
  let o ← Py.get
  let v ← raw
  let _ ← write v
  if readBack then
    let o' ← Py.get
    match o'.act.data with
    | .file p => do let _ ← read (some p); pure ()
    | _ => Py.throw .typeError
  unlink
  setSelf fun a => { a with data := o.act.data }

/-- What an object of another type than expected is stored as (see `asBitarray`): the model has no place for it,
it takes it for missing data. -/
def orMissing : Option Data → Data
  | some d => d
  | none => .deleted false

/-- The data of the given format, e.g. lines 1556, 1601, 1619, 1634.  `as_compressed` gives a text
(lines 1331-1335). -/
def Form.data : Form → Meth Data
  | .raw => do let v ← Activation.raw; pure (.raw v)
  | .bitarray => do let b ← asBitarray; pure (orMissing (b.map .bits))
  | .integer => do let n ← asInteger; pure (orMissing (n.map .int))
  | .compressed => do let s ← asCompressedStr; pure (.text s)

/-- Lines 1554-1560 and the like: hold the vector in the format `src`, convert it to `dst`, put back what was
stored. -/
def measureTime (src dst : Form) : Meth Unit := do
  let o ← Py.get
  let d ← src.data
  setSelf fun a => { a with data := d }
  let _ ← dst.data
  setSelf fun a => { a with data := o.act.data }

/-- What reading a missing figure does when `FORCE_STAT` is set. -/
def Gauge.force : Gauge → Meth Unit
  | .sizeofPath | .sizeofFile | .timeWrite => measureFile false
  | .timeRead => measureFile true
  | .sizeofRaw => do let _ ← Activation.raw; pure ()
  | .sizeofBitarray => do let _ ← asBitarray; pure ()
  | .sizeofInteger => do let _ ← asInteger; pure ()
  | .sizeofCompressedArray => do let _ ← asCompressedArray; pure ()
  | .sizeofCompressedStr => do let _ ← asCompressedStr; pure ()
  | .time src dst => measureTime src dst

/-- Reading a figure, lines 1446-1735; `missing` is `self._figure == -1`, `forced` is `Activation.FORCE_STAT`. -/
def Gauge.measure (f : Gauge) (missing forced : Bool) : Meth Unit :=
  if missing && forced then f.force else pure ()

end Verif.Activation
