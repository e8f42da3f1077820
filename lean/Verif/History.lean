import Verif.Profile
import Verif.Spec

/-!
# Programs using activations, and what they should see

`Op` are the operations a program can do, `step` runs one on the model of the library.  `Legal` and `after`
are the specification: which operations make sense, and the plain vector each object then stands for.
-/

namespace Verif.Activation

open Verif Verif.Codec Verif.Spec

/-- The read-only members of an activation. -/
inductive Read where
  | raw | ones | nones | entropy | relEntropy | coverage | bitarray | integer
  | compressedArray | compressedStr
  deriving DecidableEq, Repr

/-- What a program can do. -/
inductive Op where
  /-- create an activation for the vector `u`, given as `inp` -/
  | new (u : List Bool) (inp : Input) (optimize : Bool) (length : Option Nat) (toFile : Bool)
  | bin (k : Logic) (i j : Nat)
  | multi (isAnd : Bool) (mem : Mem) (ids : List Nat)
  | multiXor (mem mem' : Mem) (ids : List Nat)
  | sub (i j : Nat)
  | add (i j : Nat)
  | copy (i : Nat)
  | contains (i j : Nat)
  | correlation (i j : Nat)
  | read (r : Read) (i : Nat)
  /-- read a profiling figure, which may be missing, `FORCE_STAT` being set or not -/
  | measure (g : Gauge) (missing forced : Bool) (i : Nat)
  | clear (i : Nat)
  | delete (i : Nat)
  /-- assignments to the class-wide `DTYPE`, `WILL_COMPARE`, `STORE_RAW` -/
  | setDType (d : DType)
  | setWillCompare (b : Bool)
  | setStoreRaw (b : Bool)

/-- What an operation returns. -/
inductive Out where
  | done
  | object (i : Nat)
  | array (v : Arr)
  | bits (b : Option (List Bool))
  | nat (n : Nat)
  | integer (n : Option Nat)
  | quotient (f : Frac)
  | truth (b : Bool)
  | text (s : List Char)
  deriving DecidableEq, Repr

/-- Run a reader. -/
def Read.run : Read → Meth Out
  | .raw => do let v ← Activation.raw; pure (.array v)
  | .ones => do let v ← Activation.ones; pure (.array v)
  | .nones => do let v ← Activation.nones; pure (.nat v)
  | .entropy => do let v ← Activation.entropy; pure (.nat v)
  | .relEntropy => do let v ← Activation.relEntropy; pure (.quotient v)
  | .coverage => do let v ← Activation.coverage; pure (.quotient v)
  | .bitarray => do let v ← asBitarray; pure (.bits v)
  | .integer => do let v ← asInteger; pure (.integer v)
  | .compressedArray => do let v ← asCompressedArray; pure (.array v)
  | .compressedStr => do let v ← asCompressedStr; pure (.text v)

/-- Change a class attribute. -/
def setClass (f : World → World) : Py Heap Unit := Py.modify fun h => { h with w := f h.w }

/-- Run one operation. -/
def step : Op → Py Heap Out
  | .new _ inp optimize length toFile => do
    let n ← Activation.new inp optimize length toFile false
    pure (.object n)
  | .bin k i j => do let n ← binop k i j; pure (.object n)
  | .multi isAnd mem ids => do let n ← Activation.multi isAnd mem ids; pure (.object n)
  | .multiXor mem mem' ids => do
    match ← Activation.multiXor mem mem' ids false with
    | .act n => pure (.object n)
    | .arr v => pure (.array v)
  | .sub i j => do let n ← Activation.sub i j; pure (.object n)
  | .add i j => do let n ← Activation.add i j; pure (.object n)
  | .copy i => do let n ← Activation.copy i; pure (.object n)
  | .contains i j => do let b ← Activation.contains i j; pure (.truth b)
  | .correlation i j => do let f ← Activation.correlation i j; pure (.quotient f)
  | .read r i => onObj i r.run
  | .measure g missing forced i => do onObj i (g.measure missing forced); pure .done
  | .clear i => do onObj i Activation.clear; pure .done
  | .delete i => do onObj i Activation.delete; pure .done
  | .setDType d => do setClass fun w => { w with dtype := d }; pure .done
  | .setWillCompare b => do setClass fun w => { w with willCompare := b }; pure .done
  | .setStoreRaw b => do setClass fun w => { w with storeRaw := b }; pure .done

/-! ## Specification -/

/-- What a reader should answer on the vector `u`. -/
def Read.answer (u : List Bool) : Read → Out → Prop
  | .raw, o => o = .array (arr u)
  | .ones, o => o = .array (marked u)
  | .nones, o => o = .nat (u.count true)
  | .entropy, o => o = .nat ((changes u).length + 2)
  | .relEntropy, o => o = .quotient ⟨(changes u).length + 2, u.length⟩
  | .coverage, o => o = .quotient ⟨u.count true, u.length⟩
  | .bitarray, o => o = .bits (some u)
  | .integer, o => o = .integer (some (numeral u))
  | .compressedArray, o => o = .array (compressed u)
  | .compressedStr, o => ∃ s, o = .text s ∧ literalEval s = .ok (.tuple (compressed u))

/-- What a program can see of object `i` is the vector `u`: the attribute `length` and every reader. -/
def Shows (h : Heap) (i : Nat) (u : List Bool) : Prop :=
  (∃ a, h.objs[i]? = some a ∧ a.length = some u.length) ∧
  ∀ r : Read, ∃ o, (step (.read r i) h).1 = .ok o ∧ r.answer u o

/-- Assignments to the class-wide settings. -/
def Op.sets : Op → Bool
  | .setDType _ | .setWillCompare _ | .setStoreRaw _ => true
  | _ => false

/-- The vector each object stands for; `none` for a deleted or temporary object. -/
abbrev Values := List (Option (List Bool))

/-- The vectors of a list of live objects. -/
def Vectors (us : Values) (ids : List Nat) (vs : List (List Bool)) : Prop :=
  ids.map (fun i => us[i]?) = vs.map (fun v => some (some v))

/-- A constructor argument which describes the vector `u`: its raw or compressed array, its bits, its
integer with its length, a text which reads as its compressed form, or a file holding its raw array. -/
def Describes (w : World) (inp : Input) (length : Option Nat) (u : List Bool) : Prop :=
  match inp with
  | .arr v => v = arr u ∨ (v = compressed u ∧ 2 ≤ u.length)
  | .bits b => b = u ∧ (length = none ∨ length = some u.length)
  | .int n => n = numeral u ∧ length = some u.length
  | .str s => literalEval s = .ok (.tuple (compressed u))
  | .path p => w.files p = some (arr u)
  | .other => False

/-- The compressed array form cannot hold one-point vectors (see `C01_array_roundtrip_false`): when
`DTYPE` is `np.ndarray` only longer vectors are considered. -/
def Fits (w : World) (u : List Bool) : Prop := w.dtype = .str ∨ 2 ≤ u.length

/-- The operations which make sense: objects exist and were not deleted, arguments describe a non-empty
vector, lists of objects are not empty and of one length (at least two of them for `multi_logical_xor`). -/
def Legal (w : World) (us : Values) : Op → Prop
  | .new u inp _ length _ => Describes w inp length u ∧ u ≠ [] ∧ Fits w u
  | .bin _ i j => ∃ u v, Vectors us [i, j] [u, v] ∧ Fits w u
  | .sub i j | .contains i j => ∃ u v, Vectors us [i, j] [u, v] ∧ Fits w u
  | .add i j | .correlation i j => ∃ u v, Vectors us [i, j] [u, v]
  | .multi _ _ ids => ∃ u vs, Vectors us ids (u :: vs) ∧ (∀ v ∈ vs, v.length = u.length) ∧ Fits w u
  | .multiXor _ _ ids =>
    ∃ u v vs, Vectors us ids (u :: v :: vs) ∧ (∀ x ∈ v :: vs, x.length = u.length) ∧ Fits w u
  | .copy i | .clear i => ∃ u, Vectors us [i] [u] ∧ Fits w u
  | .read _ i | .measure _ _ _ i | .delete i => ∃ u, Vectors us [i] [u]
  | .setDType _ | .setWillCompare _ | .setStoreRaw _ => True

/-- The vector of a live object. -/
def vectorOf (us : Values) (i : Nat) : List Bool := (us[i]?.join).getD []

/-- The vectors objects stand for after an operation which returned `r`, the program then having `n` objects.
An operation which raised may have left temporary objects behind, and nothing else. -/
def after (us : Values) (op : Op) (r : Except Err Out) (n : Nat) : Values :=
  match r with
  | .error _ => us ++ List.replicate (n - us.length) none
  | .ok _ =>
    match op with
    | .new u _ _ _ _ => us ++ [some u]
    | .bin .and i j => us ++ [some (List.zipWith (· && ·) (vectorOf us i) (vectorOf us j))]
    | .bin .or i j => us ++ [some (List.zipWith (· || ·) (vectorOf us i) (vectorOf us j))]
    | .bin .xor i j => us ++ [some (List.zipWith (fun a b => a != b) (vectorOf us i) (vectorOf us j))]
    | .multi true _ ids =>
      us ++ [some (markedByAll (vectorOf us (ids.headD 0)).length (ids.map (vectorOf us)))]
    | .multi false _ ids =>
      us ++ [some (markedBySome (vectorOf us (ids.headD 0)).length (ids.map (vectorOf us)))]
    | .multiXor _ _ ids =>
      us ++ [some (markedBySomeNotAll (vectorOf us (ids.headD 0)).length (ids.map (vectorOf us)))]
    | .sub i j =>
      us ++ [none, some (List.zipWith (fun a b => a && !b) (vectorOf us i) (vectorOf us j))]
    | .copy i => us ++ [some (vectorOf us i)]
    | .contains _ _ => us ++ [none]
    | .clear i => us.set i (some (List.replicate (vectorOf us i).length false))
    | .delete i => us.set i none
    | .add _ _ | .correlation _ _ | .read _ _ | .measure _ _ _ _ | .setDType _ | .setWillCompare _
    | .setStoreRaw _ => us

/-- `h` can be reached from a start without objects in the world `w₀` by legal operations, some of which may
have raised, and then its objects stand for `us` according to the specification. -/
inductive Reach (w₀ : World) : Heap → Values → Prop
  | start : Reach w₀ ⟨[], w₀⟩ []
  | step {h : Heap} {us : Values} (op : Op) : Reach w₀ h us → Legal h.w us op →
      Reach w₀ (step op h).2 (after us op (step op h).1 (step op h).2.objs.length)

/-- Every file of activations belongs to a live object. -/
def NoLeak (h : Heap) (us : Values) : Prop :=
  ∀ n, h.w.files (.vec n) ≠ none →
    ∃ (i : Nat) (u : List Bool) (a : Act), us[i]? = some (some u) ∧ h.objs[i]? = some a ∧ a.data = .file (.vec n)

/-- Histories without `clear` and without `-`. -/
inductive ReachTidy (w₀ : World) : Heap → Values → Prop
  | start : ReachTidy w₀ ⟨[], w₀⟩ []
  | step {h : Heap} {us : Values} (op : Op) : ReachTidy w₀ h us → Legal h.w us op →
      (∀ i, op ≠ .clear i) → (∀ i j, op ≠ .sub i j) →
      ReachTidy w₀ (step op h).2 (after us op (step op h).1 (step op h).2.objs.length)

end Verif.Activation
