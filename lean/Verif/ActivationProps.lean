import Verif.Demo
import Verif.VectorLemmas
import Mathlib.Algebra.Order.Field.Rat
import Mathlib.Tactic.Linarith
import Mathlib.Tactic.FieldSimp

/-!
# Properties C02 (constructor), C03-C10, C31 and C36: the `Activation` class

Theorems about live objects are about a state `h` reached by an arbitrary history of operations
(`Reach w₀ h us`, see `Verif.History`); `us` is the plain vector each object stands for, `Shows h i u` says
that all a program can read of object `i` is as for the vector `u`.
-/

namespace Verif.ActivationProps

open Verif Verif.Spec Verif.Codec Verif.Activation

/-! ## C02: the constructor on integers -/

/-- **C02, violation.** "An integer which does not fit in the declared length is refused" is false of the
constructor when `WILL_COMPARE` is off: 4 (three bits) declared of length 1 is accepted, and the activation has
three points. -/
theorem C02_constructor_false :
    ¬ ∀ (w : World) (n len : Nat) (opt : Bool), 2 ^ len ≤ n →
      ∃ e w', construct (.int n) opt (some len) false false w = (.error e, w') := by
  intro h
  obtain ⟨e, w', he⟩ := h (world .str false (fun _ => true)) 4 1 false (by decide)
  have : (construct (.int 4) false (some 1) false false (world .str false (fun _ => true))).1.isOk = true := by
    decide +kernel
  rw [he] at this
  cases this

/-- What is accepted then: the activation of length 3. -/
theorem C02_constructor_wrong_vector :
    ∃ a, (construct (.int 4) false (some 1) false false (world .str false (fun _ => true))).1 = .ok a ∧
      a.length = some 3 := by
  refine ⟨_, rfl, ?_⟩
  have : (integerToBitarray 4 1).length = 3 := by decide +kernel
  exact congrArg some this

/-! ## C03 -/

/-- **C03, partial.** In every state reached by any history, whatever the storage formats the library chose,
every live object shows exactly the vector it stands for.  Left out of `Reach` (and false, see below):
one-point vectors under `DTYPE = np.ndarray`, empty vectors, `lasy=True`. -/
theorem C03_storage_invisible_partial {w₀ : World} {h : Heap} {us : Values} {i : Nat} {u : List Bool}
    (hr : Reach w₀ h us) (hi : us[i]? = some (some u)) : Shows h i u :=
  hr.abs.shows hi

example : Shows demo 1 [true, true, false] := C03_storage_invisible_partial demo_reach rfl
example : Shows demo 2 [true, false, false] := C03_storage_invisible_partial demo_reach rfl

/-- **C03 (creation), partial.** Creating an activation from any description of a vector succeeds and it shows
the vector, for every choice of flags and every machine answer, unless the file name drawn is taken
(in which case the code raises, see `C31_collision_raises`). -/
theorem C03_creation_partial {w₀ : World} {h : Heap} {us : Values} {u : List Bool} {inp : Input}
    {len : Option Nat} (opt toFile : Bool) (hr : Reach w₀ h us) (hd : Describes h.w inp len u) (hu : u ≠ [])
    (hf : Fits h.w u)
    (hfile : toFile = false ∨ h.w.storeRaw = true ∨ h.w.files (.vec (h.w.rands h.w.nRands)) = none) :
    ∃ n h', step (.new u inp opt len toFile) h = (.ok (.object n), h') ∧ Shows h' n u := by
  rcases new_abs opt toFile hr.abs (hd.stands hu) hu hf with ⟨a, w', r1, r2, _⟩ | ⟨e, _, _, h1, _, h2, h3⟩
  · exact ⟨_, _, by simp only [step]; rw [Py.bind_ok r1]; rfl, r2.shows (i := us.length) (by simp)⟩
  · rcases hfile with hc | hc | hc
    · rw [h1] at hc; cases hc
    · rw [h2] at hc; cases hc
    · exact absurd hc h3

example : Describes demo.w (.int 5) (some 4) [false, true, false, true] ∧ Fits demo.w [false, true, false, true] :=
  ⟨⟨by decide, rfl⟩, Or.inr (by simp)⟩
example : demo.w.files (.vec (demo.w.rands demo.w.nRands)) = none := by decide +kernel

/-- **C03 (no interference).** An operation other than `clear` or `delete` of the object itself, successful or
not, does not change what an object shows. -/
theorem C03_no_interference {w₀ : World} {h : Heap} {us : Values} {i : Nat} {u : List Bool} (op : Op)
    (hr : Reach w₀ h us) (hi : us[i]? = some (some u)) (hleg : Legal h.w us op)
    (h1 : op ≠ .clear i) (h2 : op ≠ .delete i) : Shows (step op h).2 i u :=
  (hr.step op hleg).abs.shows (after_keep op _ _ hi h1 h2)

example : Shows (step (.delete 3) demo).2 1 [true, true, false] :=
  C03_no_interference (.delete 3) demo_reach rfl ⟨[true, true, true], rfl⟩ (by simp) (by simp)

/-- **C03 (clear).** `clear` makes an object show as many zeros. -/
theorem C03_clear {w₀ : World} {h : Heap} {us : Values} {i : Nat} {u : List Bool}
    (hr : Reach w₀ h us) (hi : us[i]? = some (some u)) (hf : Fits h.w u) :
    (step (.clear i) h).1 = .ok .done ∧ Shows (step (.clear i) h).2 i (List.replicate u.length false) := by
  obtain ⟨h', r1, r2, _⟩ := clear_abs hr.abs hi hf
  have e : step (.clear i) h = (.ok .done, h') := by simp only [step]; rw [Py.bind_ok r1]; rfl
  rw [e]
  refine ⟨rfl, r2.shows ?_⟩
  rw [List.getElem?_set_self (List.getElem?_eq_some_iff.1 hi).1]

example : Fits demo.w [true, true, false] := Or.inr (by simp)

/-- **C03 (copy).** A copy shows the same vector (or the file name drawn is taken). -/
theorem C03_copy {w₀ : World} {h : Heap} {us : Values} {i : Nat} {u : List Bool}
    (hr : Reach w₀ h us) (hi : us[i]? = some (some u)) (hf : Fits h.w u)
    (hfile : h.w.storeRaw = true ∨ h.w.files (.vec (h.w.rands h.w.nRands)) = none) :
    ∃ n h', step (.copy i) h = (.ok (.object n), h') ∧ Shows h' n u ∧ n ≠ i := by
  rcases copy_abs hr.abs hi hf with ⟨a, w', r1, r2, _⟩ | ⟨e, _, _, _, h2, h3⟩
  · refine ⟨_, _, by simp only [step]; rw [Py.bind_ok r1]; rfl, r2.shows (i := us.length) (by simp), ?_⟩
    have := (List.getElem?_eq_some_iff.1 hi).1
    omega
  · rcases hfile with hc | hc
    · rw [h2] at hc; cases hc
    · exact absurd hc h3

/-- **C03, violation (one point).** With `DTYPE = np.ndarray` the one-point vector `[1]`, when kept compressed,
is read back as a two-point vector. -/
theorem C03_one_point_false :
    ∃ h', step (.new [true] (.arr (arr [true])) true none false) ⟨[], world .ndarray false (fun _ => false)⟩ =
        (.ok (.object 0), h') ∧ ¬ Shows h' 0 [true] := by
  refine ⟨_, rfl, fun hs => ?_⟩
  obtain ⟨o, h1, h2⟩ := hs.2 .raw
  have h3 : (step (.read .raw 0) (step (.new [true] (.arr (arr [true])) true none false)
      ⟨[], world .ndarray false (fun _ => false)⟩).2).1 = .ok (.array [1, 1]) := by decide +kernel
  rw [show o = Out.array (arr [true]) from h2] at h1
  have h4 := h3.symm.trans h1
  exact absurd h4 (by decide)

/-- **C03, violation (no point).** An empty vector cannot be turned into an activation (unless `STORE_RAW`). -/
theorem C03_empty_false (d : DType) (wc : Bool) (s : Nat → Bool) :
    ∃ e, (step (.new [] (.arr []) true none false) ⟨[], world d wc s⟩).1 = .error e := by
  cases d <;> exact ⟨_, rfl⟩

/-- A heap with one file, holding `u`, and a lasy activation on it. -/
def lasyHeap (u : List Bool) : Heap :=
  (new (.path (.user 0)) true none false true
    ⟨[], { world .str false (fun _ => true) with files := fun p => if p = .user 0 then some (arr u) else none }⟩).2

/-- **C03, violation (lasy).** A lasy activation read first through `as_bitarray` never knows its length:
here `nones` then fails although the file is fine. -/
theorem C03_lasy_false :
    ∃ h', step (.read .bitarray 0) (lasyHeap [true, false]) = (.ok (.bits (some [true, false])), h') ∧
      (step (.read .nones 0) h').1 = .error .typeError := by
  refine ⟨(step (.read .bitarray 0) (lasyHeap [true, false])).2, ?_, ?_⟩
  · refine Prod.ext ?_ rfl
    decide +kernel
  · decide +kernel

/-! ## C04 -/

/-- **C04.** The entropy of an activation is the number of places where the vector changes value plus two, in
every storage format; it lies between 2 and length + 1. -/
theorem C04_entropy {w₀ : World} {h : Heap} {us : Values} {i : Nat} {u : List Bool}
    (hr : Reach w₀ h us) (hi : us[i]? = some (some u)) :
    ∃ e, (step (.read .entropy i) h).1 = .ok (.nat e) ∧
      e = ((List.range u.length).filter (fun p => 0 < p ∧ u[p]? ≠ u[p - 1]?)).length + 2 ∧
      2 ≤ e ∧ e ≤ u.length + 1 := by
  obtain ⟨o, h1, h2⟩ := (hr.abs.shows hi).2 .entropy
  refine ⟨(changes u).length + 2, by rw [h1, show o = _ from h2], rfl, by omega, ?_⟩
  have hne := (hr.abs.rep i u hi).1
  have : (changes u).length + 1 ≤ u.length := by
    cases u with
    | nil => exact absurd rfl hne
    | cons x t =>
      simp only [changes, List.length_cons, List.range_succ_eq_map, List.filter_cons]
      simp only [Nat.lt_irrefl, false_and, decide_false, Bool.false_eq_true, if_false]
      have := List.length_filter_le (fun p => decide (0 < p ∧ (x :: t)[p]? ≠ (x :: t)[p - 1]?))
        ((List.range t.length).map Nat.succ)
      simp at this ⊢
      omega
  omega

/-- Both bounds are reached. -/
example : (step (.read .entropy 3) demo).1 = .ok (.nat 2) ∧ (step (.read .entropy 0) demo).1 = .ok (.nat 4) := by
  decide +kernel

/-- **C04 (one point, any format).** The excluded case of `Fits`: right after construction from a one-point
vector, the entropy is 2 in every format and with every setting. -/
theorem C04_entropy_one_point (x : Bool) (opt : Bool) (w : World) :
    ∃ h', step (.new [x] (.arr (arr [x])) opt none false) ⟨[], w⟩ = (.ok (.object 0), h') ∧
      (step (.read .entropy 0) h').1 = .ok (.nat 2) := by
  have hl : ∀ d, compLen (compress [x.toNat] d) d = .ok 2 := by
    intro d
    cases d <;> cases x <;> decide +kernel
  have hi : ∃ n, rawToInteger [x.toNat] = .ok n := by cases x <;> exact ⟨_, rfl⟩
  have hb : ∃ b, rawToBitarray [x.toNat] = .ok b := by cases x <;> exact ⟨_, rfl⟩
  have hm : x.toNat % 256 = x.toNat := by cases x <;> rfl
  have hg : ¬ 1 < x.toNat := by cases x <;> decide
  obtain ⟨n, hi⟩ := hi
  obtain ⟨b, hb⟩ := hb
  cases hs : w.storeRaw <;> cases hw : w.willCompare <;> cases hz : w.sizes w.nSizes <;>
    simp [step, new, construct, init, initAny, initRaw, arr, Py.bind_run, setSelf, blank, hs, hw, hl, hi, hb, hm,
      hg, askSize, hz, onObj, Read.run, entropy, divLength]

/-! ## C05 -/

/-- The truth functions of the three operators. -/
def meaning : Logic → Bool → Bool → Bool
  | .and, a, b => a && b
  | .or, a, b => a || b
  | .xor, a, b => a != b

theorem meaning_eq (k : Logic) : meaning k = k.bool := by
  funext a b; cases k <;> rfl

/-- **C05, partial.** `a & b`, `a | b`, `a ^ b` give a new activation showing the element-wise result, for every
pair of storage formats but two integers (see `C05_integers_false`), provided the file name drawn is free when
both operands are on disk. -/
theorem C05_pointwise_partial {w₀ : World} {h : Heap} {us : Values} {i j : Nat} {u v : List Bool} (k : Logic)
    (hr : Reach w₀ h us) (hi : us[i]? = some (some u)) (hj : us[j]? = some (some v)) (hl : u.length = v.length)
    (hf : Fits h.w u) (hint : ¬ (IsInt h i ∧ IsInt h j))
    (hfile : IsFile h i → IsFile h j → h.w.storeRaw = true ∨ h.w.files (.vec (h.w.rands h.w.nRands)) = none) :
    ∃ n h', step (.bin k i j) h = (.ok (.object n), h') ∧ Shows h' n (List.zipWith (meaning k) u v) := by
  rcases binop_abs k hr.abs hi hj hl hf hint with ⟨h0, a, w', r1, _, r2, _⟩ | ⟨e, h0, _, _, _, h1, h2, h3, h4⟩
  · refine ⟨us.length, _, by simp only [step]; rw [Py.bind_ok r1]; rfl, ?_⟩
    rw [meaning_eq]
    exact r2.shows (by simp)
  · rcases hfile h1 h2 with hc | hc
    · rw [h3] at hc; cases hc
    · exact absurd hc h4

example : ¬ (IsInt demo 0 ∧ IsInt demo 1) := by
  rintro ⟨⟨a, n, ha, hd⟩, _⟩
  have h1 : demo.objs[0]?.map (·.data) = some (.bits [true, false, true]) := by decide +kernel
  rw [ha] at h1
  simp [hd] at h1

/-- **C05 (never a wrong answer).** Whenever an operator returns, the result is right, and all other objects
still show their vectors; this includes integers. -/
theorem C05_never_wrong {w₀ : World} {h h' : Heap} {us : Values} {i j n : Nat} {u v : List Bool} (k : Logic)
    (hr : Reach w₀ h us) (hi : us[i]? = some (some u)) (hj : us[j]? = some (some v)) (hf : Fits h.w u)
    (hs : step (.bin k i j) h = (.ok (.object n), h')) :
    u.length = v.length ∧ Shows h' n (List.zipWith (meaning k) u v) ∧ Shows h' i u ∧ Shows h' j v := by
  have hvec : Vectors us [i, j] [u, v] := by simp [Vectors, hi, hj]
  have hleg : Legal h.w us (.bin k i j) := ⟨u, v, hvec, hf⟩
  have k1 := C03_no_interference (.bin k i j) hr hi hleg (by simp) (by simp)
  have k2 := C03_no_interference (.bin k i j) hr hj hleg (by simp) (by simp)
  rw [hs] at k1 k2
  by_cases hl : u.length = v.length
  · refine ⟨hl, ?_, k1, k2⟩
    by_cases hint : IsInt h i ∧ IsInt h j
    · have : step (.bin k i j) h = (.error .valueError, h) := Py.bind_err (binop_int k hr.abs hi hj hint.1 hint.2)
      rw [this] at hs; cases hs
    · rcases binop_abs k hr.abs hi hj hl hf hint with ⟨h0, a, w', r1, _, r2, _⟩ | ⟨e, h0, r1, _⟩
      · have : step (.bin k i j) h = (.ok (.object us.length), ⟨h0.objs ++ [a], w'⟩) := by
          simp only [step]; rw [Py.bind_ok r1]; rfl
        rw [this] at hs
        cases hs
        rw [meaning_eq]
        exact r2.shows (by simp)
      · have : step (.bin k i j) h = (.error e, _) := Py.bind_err r1
        rw [this] at hs; cases hs
  · have : step (.bin k i j) h = (.error .valueError, h) := Py.bind_err (binop_length k hr.abs hi hj hl)
    rw [this] at hs; cases hs

example : (step (.bin .xor 0 1) demo).1 = .ok (.object 4) := by decide +kernel

/-- **C05 (different lengths).** Operands of different lengths raise `ValueError` and nothing at all changes. -/
theorem C05_length_mismatch {w₀ : World} {h : Heap} {us : Values} {i j : Nat} {u v : List Bool} (k : Logic)
    (hr : Reach w₀ h us) (hi : us[i]? = some (some u)) (hj : us[j]? = some (some v)) (hl : u.length ≠ v.length) :
    step (.bin k i j) h = (.error .valueError, h) :=
  Py.bind_err (binop_length k hr.abs hi hj hl)

example : ∃ w₀ h, Reach w₀ h [some [true, false], some [true, true, true]] := by
  refine ⟨demoWorld, runs [mk [true, false] false, mk [true, true, true] false] ⟨[], demoWorld⟩, ?_⟩
  have : values [mk [true, false] false, mk [true, true, true] false] ⟨[], demoWorld⟩ [] =
    [some [true, false], some [true, true, true]] := by decide +kernel
  rw [← this]
  exact runs_reach _ .start (by simp [mk, IsMk])

/-- **C05, violation (exact).** On two activations stored as integers, every operator raises `ValueError`. -/
theorem C05_integers_raise {w₀ : World} {h : Heap} {us : Values} {i j : Nat} {u v : List Bool} (k : Logic)
    (hr : Reach w₀ h us) (hi : us[i]? = some (some u)) (hj : us[j]? = some (some v))
    (h1 : IsInt h i) (h2 : IsInt h j) : step (.bin k i j) h = (.error .valueError, h) :=
  Py.bind_err (binop_int k hr.abs hi hj h1 h2)

/-- **C05, negation of the full statement**: `&` of two equally long activations does not always work. -/
theorem C05_integers_false :
    ¬ ∀ (w₀ : World) (h : Heap) (us : Values) (i j : Nat) (u v : List Bool) (k : Logic), Reach w₀ h us →
      us[i]? = some (some u) → us[j]? = some (some v) → u.length = v.length → Fits h.w u →
      ∃ n h', step (.bin k i j) h = (.ok (.object n), h') := by
  intro hall
  obtain ⟨n, h', he⟩ := hall _ _ _ 0 1 _ _ .and ints_reach rfl rfl rfl (Or.inr (by simp))
  have h1 : (step (.bin .and 0 1) ints).1 = .error .valueError := by decide +kernel
  rw [he] at h1
  cases h1

/-! ## C06 -/

/-- **C06, partial.** `multi_logical_and` of a non-empty list of equally long activations gives an activation showing the
points marked by all, `multi_logical_or` those marked by some, for every report of free memory, unless
`MemoryError` is raised or (all operands being on disk) the file name drawn is taken.  Missing: one-point vectors
under `DTYPE = np.ndarray`, whose result is stored wrongly (`C03_one_point_false`). -/
theorem C06_multi_partial {w₀ : World} {h : Heap} {us : Values} {ids : List Nat} {u : List Bool} {vs : List (List Bool)}
    (isAnd : Bool) (mem : Mem) (hr : Reach w₀ h us) (hv : Vectors us ids (u :: vs))
    (hl : ∀ v ∈ vs, v.length = u.length) (hf : Fits h.w u)
    (hfile : (∃ i ∈ ids, ¬ IsFile h i) ∨ h.w.storeRaw = true ∨ h.w.files (.vec (h.w.rands h.w.nRands)) = none) :
    (∃ n h', step (.multi isAnd mem ids) h = (.ok (.object n), h') ∧
      Shows h' n (if isAnd then markedByAll u.length (u :: vs) else markedBySome u.length (u :: vs))) ∨
    (step (.multi isAnd mem ids) h).1 = .error .memoryError := by
  cases ids with
  | nil => simp [Vectors] at hv
  | cons i ids =>
    rcases multi_abs isAnd mem hr.abs hv hl hf with ⟨h0, a, w', r1, _, r2, _⟩ | ⟨h', r1, _⟩ | ⟨e, h0, r1, _, _, h1, h2, h3⟩
    · refine Or.inl ⟨us.length, _, by simp only [step]; rw [Py.bind_ok r1]; rfl, ?_⟩
      cases isAnd
      · simp only [Bool.false_eq_true, if_false, ← markedBySome_eq u vs hl]
        exact r2.shows (by simp)
      · simp only [if_true, ← markedByAll_eq u vs hl]
        exact r2.shows (by simp)
    · exact Or.inr (by simp only [step]; rw [Py.bind_err r1])
    · rcases hfile with ⟨k, hk, hc⟩ | hc | hc
      · exact absurd (h1 k hk) hc
      · rw [h2] at hc; cases hc
      · exact absurd hc h3

/-- The memory report below sends the computation through the pairwise branch. -/
example : (step (.multi true ⟨10, 8, 4, false, false⟩ [0, 1, 3]) demo).1 = .ok (.object 4) := by decide +kernel
example : Vectors demoValues [0, 1, 3] [[true, false, true], [true, true, false], [true, true, true]] := rfl

/-- **C06 (as array).** With `asarray=True` the array returned is right in every case but `MemoryError`, also
for one-point vectors and taken file names. -/
theorem C06_multi_asarray {w₀ : World} {h : Heap} {us : Values} {ids : List Nat} {u : List Bool}
    {vs : List (List Bool)} (isAnd : Bool) (mem : Mem) (hr : Reach w₀ h us) (hv : Vectors us ids (u :: vs))
    (hl : ∀ v ∈ vs, v.length = u.length) :
    (multiArr isAnd mem ids h).1 =
      .ok (arr (if isAnd then markedByAll u.length (u :: vs) else markedBySome u.length (u :: vs))) ∨
    (multiArr isAnd mem ids h).1 = .error .memoryError := by
  cases ids with
  | nil => simp [Vectors] at hv
  | cons i ids =>
    obtain ⟨h', _, _, r | ⟨r, _⟩⟩ := multiArr_abs isAnd mem hr.abs hv hl
    · left
      rw [r]
      cases isAnd
      · simp only [Bool.false_eq_true, if_false, ← markedBySome_eq u vs hl]
      · simp only [if_true, ← markedByAll_eq u vs hl]
    · right; rw [r]

/-- **C06 (MemoryError only for lack of memory).** It is raised only when less than twice the size of one vector
is free, or numpy fails to allocate two vectors. -/
theorem C06_memory_error {w₀ : World} {h : Heap} {us : Values} {ids : List Nat} {u : List Bool}
    {vs : List (List Bool)} (isAnd : Bool) (mem : Mem) (hr : Reach w₀ h us) (hv : Vectors us ids (u :: vs))
    (hl : ∀ v ∈ vs, v.length = u.length) (he : (multiArr isAnd mem ids h).1 = .error .memoryError) :
    mem.before < 2 * (mem.before - mem.after) ∨ mem.oomPairs = true := by
  cases ids with
  | nil => simp [Vectors] at hv
  | cons i ids =>
    obtain ⟨h', _, _, r | ⟨r, hm⟩⟩ := multiArr_abs isAnd mem hr.abs hv hl
    · rw [r] at he; cases he
    · exact hm

example : (multiArr true ⟨10, 2, 1, false, false⟩ [0, 1] demo).1 = .error .memoryError := by decide +kernel

/-! ## C07 -/

/-- **C07, partial.** `multi_logical_xor` of at least two equally long activations marks exactly the points marked
by some and not by all; unless `MemoryError` is raised or all operands are on disk (where a taken file name makes
it fail).  Missing: lists of one activation, for which it is false (`C07_single_false`). -/
theorem C07_multi_xor_partial {w₀ : World} {h : Heap} {us : Values} {ids : List Nat} {u v : List Bool}
    {vs : List (List Bool)} (mem mem' : Mem) (hr : Reach w₀ h us) (hv : Vectors us ids (u :: v :: vs))
    (hl : ∀ x ∈ v :: vs, x.length = u.length) (hf : Fits h.w u) (hfile : ∃ i ∈ ids, ¬ IsFile h i) :
    (∃ n h', step (.multiXor mem mem' ids) h = (.ok (.object n), h') ∧
      Shows h' n (markedBySomeNotAll u.length (u :: v :: vs))) ∨
    (step (.multiXor mem mem' ids) h).1 = .error .memoryError := by
  match ids, hv with
  | [], hv => simp [Vectors] at hv
  | [_], hv => simp [Vectors] at hv
  | i :: j :: ids, hv =>
    rcases multiXor_abs mem mem' false hr.abs hv hl hf with ⟨_, _, _, hc⟩ | ⟨h', r1, r2, _⟩ | ⟨e, h', r1, _, _, _, _, he⟩
    · cases hc
    · refine Or.inl ⟨us.length, h', by simp only [step]; rw [Py.bind_ok r1]; rfl, ?_⟩
      rw [← markedBySomeNotAll_eq u (v :: vs) hl]
      exact r2.shows (by simp)
    · rcases he with he | ⟨_, he⟩
      · subst he
        exact Or.inr (by simp only [step]; rw [Py.bind_err r1])
      · obtain ⟨k, hk, hc⟩ := hfile
        exact absurd (he k hk) hc

/-- **C07 (as array)**: the same for `asarray=True`, without any condition on files. -/
theorem C07_multi_xor_asarray {w₀ : World} {h : Heap} {us : Values} {ids : List Nat} {u v : List Bool}
    {vs : List (List Bool)} (mem mem' : Mem) (hr : Reach w₀ h us) (hv : Vectors us ids (u :: v :: vs))
    (hl : ∀ x ∈ v :: vs, x.length = u.length) (hf : Fits h.w u) :
    (multiXor mem mem' ids true h).1 = .ok (.arr (arr (markedBySomeNotAll u.length (u :: v :: vs)))) ∨
    (multiXor mem mem' ids true h).1 = .error .memoryError := by
  match ids, hv with
  | [], hv => simp [Vectors] at hv
  | [_], hv => simp [Vectors] at hv
  | i :: j :: ids, hv =>
    rcases multiXor_abs mem mem' true hr.abs hv hl hf with ⟨h', r1, _⟩ | ⟨_, _, _, _, _, hc⟩ | ⟨e, h', r1, _, _, _, _, he⟩
    · left; rw [r1, markedBySomeNotAll_eq u (v :: vs) hl]
    · cases hc
    · rcases he with he | ⟨hc, _⟩
      · right; rw [r1, he]
      · cases hc

example : (multiXor ⟨100, 99, 1, false, false⟩ ⟨100, 99, 1, false, false⟩ [0, 1, 2] true demo).1 =
    .ok (.arr [0, 1, 1]) := by decide +kernel

/-- **C07 (two operands).** For two activations it is the element-wise exclusive or, as `a ^ b`. -/
theorem C07_two (u v : List Bool) (hl : v.length = u.length) :
    markedBySomeNotAll u.length [u, v] = List.zipWith (meaning .xor) u v := by
  rw [← markedBySomeNotAll_eq u [v] (by simpa using hl)]
  simp only [xorAll, redOp, List.foldl_cons, List.foldl_nil]
  apply List.ext_getElem?
  intro p
  simp only [List.getElem?_zipWith]
  cases hu : u[p]? <;> cases hv : v[p]? <;> simp
  rename_i a b
  cases a <;> cases b <;> rfl

/-- **C07, violation.** For a list of one activation the result is the activation itself (no point is marked by
some but not all): the statement for all non-empty lists is false. -/
theorem C07_single_false :
    ¬ ∀ (w₀ : World) (h : Heap) (us : Values) (ids : List Nat) (u : List Bool) (vs : List (List Bool))
        (mem mem' : Mem), Reach w₀ h us → Vectors us ids (u :: vs) → (∀ v ∈ vs, v.length = u.length) →
        Fits h.w u → (∃ i ∈ ids, ¬ IsFile h i) →
      (∃ n h', step (.multiXor mem mem' ids) h = (.ok (.object n), h') ∧
        Shows h' n (markedBySomeNotAll u.length (u :: vs))) ∨
      (step (.multiXor mem mem' ids) h).1 = .error .memoryError := by
  intro hall
  have := hall demoWorld demo demoValues [0] [true, false, true] [] ⟨100, 99, 1, false, false⟩
    ⟨100, 99, 1, false, false⟩ demo_reach rfl (by simp) (Or.inr (by simp)) ⟨0, by simp, by
      rintro ⟨a, p, ha, hd⟩
      have h1 : demo.objs[0]?.map (·.data) = some (.bits [true, false, true]) := by decide +kernel
      rw [ha] at h1
      simp [hd] at h1⟩
  rcases this with ⟨n, h', h1, h2⟩ | h1
  · obtain ⟨o, h3, h4⟩ := h2.2 .raw
    have h5 : step (.multiXor ⟨100, 99, 1, false, false⟩ ⟨100, 99, 1, false, false⟩ [0]) demo =
        (.ok (.object 4), (step (.multiXor ⟨100, 99, 1, false, false⟩ ⟨100, 99, 1, false, false⟩ [0]) demo).2) :=
      Prod.ext (by decide +kernel) rfl
    rw [h5] at h1
    have hn : n = 4 := by
      have := congrArg Prod.fst h1
      simpa using this.symm
    have hh := congrArg Prod.snd h1
    subst hn
    have h6 : (step (.read .raw 4) (step (.multiXor ⟨100, 99, 1, false, false⟩ ⟨100, 99, 1, false, false⟩ [0])
      demo).2).1 = .ok (.array [1, 0, 1]) := by decide +kernel
    rw [show (step (.multiXor ⟨100, 99, 1, false, false⟩ ⟨100, 99, 1, false, false⟩ [0]) demo).2 = h' from hh, h3,
      show o = _ from h4] at h6
    revert h6
    decide
  · revert h1
    decide +kernel

/-! ## C08 -/

/-- **C08 (difference), partial.** `a - b` marks the points marked by `a` and not by `b`, when `a` is neither
stored as an integer (see `C08_integers_false`) nor in a file (where a taken file name makes it fail). -/
theorem C08_difference_partial {w₀ : World} {h : Heap} {us : Values} {i j : Nat} {u v : List Bool}
    (hr : Reach w₀ h us) (hi : us[i]? = some (some u)) (hj : us[j]? = some (some v)) (hl : u.length = v.length)
    (hf : Fits h.w u) (hint : ¬ IsInt h i) (hfile : ¬ IsFile h i ∨ h.w.storeRaw = true) :
    ∃ n h', step (.sub i j) h = (.ok (.object n), h') ∧ Shows h' n (List.zipWith (fun a b => a && !b) u v) := by
  rcases sub_abs hr.abs hi hj hl hf with ⟨h', r1, _, r2⟩ | ⟨e, h', x, r1, r2, _, hc | ⟨h1, h2⟩⟩
  · refine ⟨us.length + 1, h', by simp only [step]; rw [Py.bind_ok r1]; rfl, r2.shows ?_⟩
    rw [List.getElem?_append_right (by omega)]
    simp
  · exact absurd hc hint
  · rcases hfile with hc | hc
    · exact absurd h1 hc
    · rw [h2] at hc; cases hc

/-- **C08 (difference, never a wrong answer).** Whenever `a - b` returns, in any formats, it is right. -/
theorem C08_difference_never_wrong {w₀ : World} {h h' : Heap} {us : Values} {i j n : Nat} {u v : List Bool}
    (hr : Reach w₀ h us) (hi : us[i]? = some (some u)) (hj : us[j]? = some (some v)) (hf : Fits h.w u)
    (hs : step (.sub i j) h = (.ok (.object n), h')) :
    u.length = v.length ∧ Shows h' n (List.zipWith (fun a b => a && !b) u v) := by
  by_cases hl : u.length = v.length
  · refine ⟨hl, ?_⟩
    rcases sub_abs hr.abs hi hj hl hf with ⟨h1, r1, _, r2⟩ | ⟨e, h1, x, r1, _⟩
    · have : step (.sub i j) h = (.ok (.object (us.length + 1)), h1) := by simp only [step]; rw [Py.bind_ok r1]; rfl
      rw [this] at hs
      cases hs
      refine r2.shows ?_
      rw [List.getElem?_append_right (by omega)]
      simp
    · have : step (.sub i j) h = (.error e, h1) := Py.bind_err r1
      rw [this] at hs; cases hs
  · have : step (.sub i j) h = (.error .valueError, h) :=
      Py.bind_err (Py.bind_err (binop_length .xor hr.abs hi hj hl))
    rw [this] at hs; cases hs

example : (step (.sub 3 1) demo).1 = .ok (.object 5) ∧
    (step (.read .raw 5) (step (.sub 3 1) demo).2).1 = .ok (.array [0, 0, 1]) := by decide +kernel

/-- **C08, violation (difference of integers).** -/
theorem C08_integers_false : (step (.sub 0 1) ints).1 = .error .valueError := by decide +kernel

/-- **C08, violation (sum, exact).** `a + b` does not compute anything: it returns `a` itself. -/
theorem C08_sum_is_left {w₀ : World} {h : Heap} {us : Values} {i j : Nat} {u v : List Bool}
    (hr : Reach w₀ h us) (hi : us[i]? = some (some u)) (_hj : us[j]? = some (some v)) :
    step (.add i j) h = (.ok (.object i), h) := by
  obtain ⟨hne, a, ha, hra⟩ := hr.abs.rep i u hi
  cases hu : u.length with
  | zero => exact absurd (List.length_eq_zero_iff.1 hu) hne
  | succ n => simp [step, add, look, Py.bind_run, ha, hra.length, hu]

/-- **C08, negation of "a + b marks the points marked by a or by b".** -/
theorem C08_sum_false :
    ¬ ∀ (w₀ : World) (h : Heap) (us : Values) (i j n : Nat) (u v : List Bool) (h' : Heap), Reach w₀ h us →
      us[i]? = some (some u) → us[j]? = some (some v) → u.length = v.length →
      step (.add i j) h = (.ok (.object n), h') → Shows h' n (List.zipWith (fun a b => a || b) u v) := by
  intro hall
  have h1 := C08_sum_is_left (i := 0) (j := 1) demo_reach rfl rfl
  have h2 := hall _ _ _ 0 1 0 _ _ demo demo_reach rfl rfl rfl h1
  obtain ⟨o, h3, h4⟩ := h2.2 .raw
  obtain ⟨o', h3', h4'⟩ := (demo_reach.abs.shows (i := 0) rfl).2 .raw
  rw [h3] at h3'
  rw [show o = _ from h4, show o' = _ from h4'] at h3'
  revert h3'
  decide

/-! ## C09 -/

/-- **C09 (exact meaning).** Whenever `b in a` returns, it is true exactly when one of the two activations is
included in the other. -/
theorem C09_contains_exact {w₀ : World} {h h' : Heap} {us : Values} {i j : Nat} {u v : List Bool} {r : Bool}
    (hr : Reach w₀ h us) (hi : us[i]? = some (some u)) (hj : us[j]? = some (some v)) (hl : u.length = v.length)
    (hf : Fits h.w u) (hs : step (.contains i j) h = (.ok (.truth r), h')) :
    r = true ↔ Included v u ∨ Included u v := by
  by_cases hint : IsInt h i ∧ IsInt h j
  · have : step (.contains i j) h = (.error .valueError, h) :=
      Py.bind_err (Py.bind_err (binop_int .and hr.abs hi hj hint.1 hint.2))
    rw [this] at hs; cases hs
  · rcases contains_abs hr.abs hi hj hl hf hint with ⟨h1, r1, _⟩ | ⟨e, h1, r1, _⟩
    · have : ∃ b, b = _ ∧ step (.contains i j) h = (.ok (.truth b), h1) :=
        ⟨_, rfl, by simp only [step]; rw [Py.bind_ok r1]; rfl⟩
      obtain ⟨b, hb, this⟩ := this
      rw [this] at hs
      cases hs
      rw [hb]
      obtain ⟨a1, a2⟩ := count_and u v hl
      obtain ⟨b1, b2⟩ := count_and v u hl.symm
      rw [zipWith_and_comm v u] at b1 b2
      rw [← a2, ← b2]
      simp only [Bool.not_eq_true', decide_eq_false_iff_not]
      omega
    · have : step (.contains i j) h = (.error e, h1) := Py.bind_err r1
      rw [this] at hs; cases hs

example : (step (.contains 3 1) demo).1 = .ok (.truth true) := by decide +kernel
example : (step (.contains 0 1) demo).1 = .ok (.truth false) := by decide +kernel

/-- **C09, partial.** `b in a` is right when `a` marks at least as many points as `b`. -/
theorem C09_contains_partial {w₀ : World} {h h' : Heap} {us : Values} {i j : Nat} {u v : List Bool} {r : Bool}
    (hr : Reach w₀ h us) (hi : us[i]? = some (some u)) (hj : us[j]? = some (some v)) (hl : u.length = v.length)
    (hf : Fits h.w u) (hs : step (.contains i j) h = (.ok (.truth r), h'))
    (hcount : v.count true ≤ u.count true) : r = true ↔ Included v u := by
  rw [C09_contains_exact hr hi hj hl hf hs]
  refine ⟨fun h => ?_, Or.inl⟩
  rcases h with h | h
  · exact h
  · obtain ⟨b1, b2⟩ := count_and v u hl.symm
    obtain ⟨a1, a2⟩ := count_and u v hl
    rw [zipWith_and_comm v u] at b1 b2
    rw [← a2]
    have := b2.2 h
    omega

/-- **C09 (it answers), partial.** `b in a` returns an answer unless both are stored as integers, or both in files
and the file name drawn is taken; and then leaves all vectors as they were. -/
theorem C09_contains_answers_partial {w₀ : World} {h : Heap} {us : Values} {i j : Nat} {u v : List Bool}
    (hr : Reach w₀ h us) (hi : us[i]? = some (some u)) (hj : us[j]? = some (some v)) (hl : u.length = v.length)
    (hf : Fits h.w u) (hint : ¬ (IsInt h i ∧ IsInt h j))
    (hfile : h.w.storeRaw = true ∨ h.w.files (.vec (h.w.rands h.w.nRands)) = none) :
    ∃ r h', step (.contains i j) h = (.ok (.truth r), h') ∧
      ∀ (k : Nat) (x : List Bool), us[k]? = some (some x) → Shows h' k x := by
  rcases contains_abs hr.abs hi hj hl hf hint with ⟨h1, r1, r2, _⟩ | ⟨e, h1, _, _, _, _, _, _, _, h3, h4⟩
  · refine ⟨_, h1, by simp only [step]; rw [Py.bind_ok r1]; rfl, fun k x hk => r2.shows (getElem?_append_lt hk)⟩
  · rcases hfile with hc | hc
    · rw [h3] at hc; cases hc
    · exact absurd hc h4

/-- **C09, violation.** `[1,1,1] in [1,1,0]` is true. -/
theorem C09_contains_false :
    ¬ ∀ (w₀ : World) (h h' : Heap) (us : Values) (i j : Nat) (u v : List Bool) (r : Bool), Reach w₀ h us →
      us[i]? = some (some u) → us[j]? = some (some v) → u.length = v.length → Fits h.w u →
      step (.contains i j) h = (.ok (.truth r), h') → (r = true ↔ Included v u) := by
  intro hall
  have h1 : step (.contains 1 3) demo = (.ok (.truth true), (step (.contains 1 3) demo).2) :=
    Prod.ext (by decide +kernel) rfl
  have h2 := hall _ _ _ _ 1 3 _ _ _ demo_reach rfl rfl rfl (Or.inr (by simp)) h1
  have h3 := h2.1 rfl 2 rfl
  cases h3

/-! ## C10 -/

/-- The number a quotient stands for. -/
def value (f : Frac) : ℚ := (f.num : ℚ) / f.den

/-- **C10 (value).** `get_correlation` of two equally long activations is the fraction of the points where they
agree; it always answers. -/
theorem C10_value {w₀ : World} {h : Heap} {us : Values} {i j : Nat} {u v : List Bool}
    (hr : Reach w₀ h us) (hi : us[i]? = some (some u)) (hj : us[j]? = some (some v)) (hl : u.length = v.length) :
    ∃ f h', step (.correlation i j) h = (.ok (.quotient f), h') ∧
      value f = (agreements u v : ℚ) / u.length ∧
      ∀ (k : Nat) (x : List Bool), us[k]? = some (some x) → Shows h' k x := by
  obtain ⟨h', r1, r2, _⟩ := correlation_abs hr.abs hi hj hl
  exact ⟨_, h', by simp only [step]; rw [Py.bind_ok r1]; rfl, rfl, fun k x hk => r2.shows hk⟩

/-- What `get_correlation` returns for objects `i` and `j`. -/
def correlationOf (h : Heap) (i j : Nat) : Option ℚ :=
  match (step (.correlation i j) h).1 with
  | .ok (.quotient f) => some (value f)
  | _ => none

theorem correlationOf_eq {w₀ : World} {h : Heap} {us : Values} {i j : Nat} {u v : List Bool}
    (hr : Reach w₀ h us) (hi : us[i]? = some (some u)) (hj : us[j]? = some (some v)) (hl : u.length = v.length) :
    correlationOf h i j = some ((agreements u v : ℚ) / u.length) := by
  obtain ⟨f, h', h1, h2, _⟩ := C10_value hr hi hj hl
  simp [correlationOf, h1, h2]

/-- **C10 (similarity).** Between 0 and 1, symmetric, 1 exactly for the same vector, 0 exactly for complementary
vectors. -/
theorem C10_similarity {w₀ : World} {h : Heap} {us : Values} {i j : Nat} {u v : List Bool}
    (hr : Reach w₀ h us) (hi : us[i]? = some (some u)) (hj : us[j]? = some (some v)) (hl : u.length = v.length) :
    ∃ c, correlationOf h i j = some c ∧ correlationOf h j i = some c ∧ 0 ≤ c ∧ c ≤ 1 ∧
      (c = 1 ↔ u = v) ∧ (c = 0 ↔ v = u.map not) := by
  have hne := (hr.abs.rep i u hi).1
  have hpos : (0 : ℚ) < u.length := by
    have : 0 < u.length := List.length_pos_iff.2 hne
    exact_mod_cast this
  have hle := agreements_le u v hl
  refine ⟨(agreements u v : ℚ) / u.length, correlationOf_eq hr hi hj hl, ?_, ?_, ?_, ?_, ?_⟩
  · rw [correlationOf_eq hr hj hi hl.symm, agreements_comm, hl]
  · exact div_nonneg (by exact_mod_cast Nat.zero_le _) hpos.le
  · rw [div_le_one₀ hpos]; exact_mod_cast hle
  · rw [div_eq_one_iff_eq hpos.ne', ← agreements_eq u v hl]
    exact_mod_cast Iff.rfl
  · rw [div_eq_zero_iff, ← agreements_zero u v hl]
    constructor
    · rintro (h | h)
      · exact_mod_cast h
      · exact absurd h hpos.ne'
    · intro h; left; exact_mod_cast h

example : (step (.correlation 0 1) demo).1 = .ok (.quotient ⟨1, 3⟩) := by decide +kernel

/-- **C10 (triangle inequality)** for `1 - correlation`. -/
theorem C10_triangle {w₀ : World} {h : Heap} {us : Values} {i j k : Nat} {u v w : List Bool}
    (hr : Reach w₀ h us) (hi : us[i]? = some (some u)) (hj : us[j]? = some (some v))
    (hk : us[k]? = some (some w)) (hl : u.length = v.length) (hl' : v.length = w.length) :
    ∃ a b c, correlationOf h i j = some a ∧ correlationOf h j k = some b ∧ correlationOf h i k = some c ∧
      1 - c ≤ (1 - a) + (1 - b) := by
  have hne := (hr.abs.rep i u hi).1
  have hpos : (0 : ℚ) < u.length := by
    have : 0 < u.length := List.length_pos_iff.2 hne
    exact_mod_cast this
  refine ⟨_, _, _, correlationOf_eq hr hi hj hl, correlationOf_eq hr hj hk hl',
    correlationOf_eq hr hi hk (hl.trans hl'), ?_⟩
  have ht : (agreements u v : ℚ) + agreements v w ≤ u.length + agreements u w := by
    exact_mod_cast agreements_triangle u v w hl hl'
  rw [← hl]
  have h2 : (agreements u v : ℚ) / u.length + agreements v w / u.length ≤ 1 + agreements u w / u.length := by
    have h1 : (1 : ℚ) = u.length / u.length := (div_self hpos.ne').symm
    rw [h1, ← add_div, ← add_div]
    exact div_le_div_of_nonneg_right ht hpos.le
  linarith

example : demoValues[0]? = some (some [true, false, true]) ∧ demoValues[1]? = some (some [true, true, false]) ∧
    demoValues[3]? = some (some [true, true, true]) := by decide

/-- **C10 (different lengths)** raise `ValueError`. -/
theorem C10_length_mismatch {w₀ : World} {h : Heap} {us : Values} {i j : Nat} {u v : List Bool}
    (hr : Reach w₀ h us) (hi : us[i]? = some (some u)) (hj : us[j]? = some (some v)) (hl : u.length ≠ v.length) :
    step (.correlation i j) h = (.error .valueError, h) :=
  Py.bind_err (correlation_length hr.abs hi hj hl)

/-! ## C31 -/

/-- **C31 (no sharing).** Two live activations never share a file. -/
theorem C31_no_sharing {w₀ : World} {h : Heap} {us : Values} {i j : Nat} {u v : List Bool} {a b : Act} {p : Path}
    (hr : Reach w₀ h us) (hi : us[i]? = some (some u)) (hj : us[j]? = some (some v))
    (ha : h.objs[i]? = some a) (hb : h.objs[j]? = some b) (hp : a.data = .file p) (hp' : b.data = .file p) :
    i = j :=
  hr.abs.own i j u v a b p hi hj ha hb hp hp'

example : demo.objs[1]?.map (·.data) = some (.file (.vec 0)) ∧ demo.objs[3]?.map (·.data) = some (.file (.vec 1)) := by
  decide +kernel

/-- **C31 (no overwriting).** No operation, successful or not, changes or removes an existing file, except
`delete` of the activation stored in it. -/
theorem C31_no_overwrite {w₀ : World} {h : Heap} {us : Values} (op : Op) (hr : Reach w₀ h us)
    (hleg : Legal h.w us op) (p : Path) (v : Arr) (hp : h.w.files p = some v)
    (hd : ∀ (i : Nat) (a : Act), op = .delete i → h.objs[i]? = some a → a.data ≠ .file p) :
    (step op h).2.w.files p = some v := by
  rcases (step_world op hr.abs hleg).2 p v hp with h1 | ⟨i, a, h1, h2, h3⟩
  · exact h1
  · exact absurd h3 (hd i a h1 h2)

example : demo.w.files (.vec 0) = some [1, 1, 0] := by decide +kernel

/-- **C31 (delete).** Deleting an activation removes its own file and no other. -/
theorem C31_delete {w₀ : World} {h : Heap} {us : Values} {i : Nat} {u : List Bool} {a : Act}
    (hr : Reach w₀ h us) (hi : us[i]? = some (some u)) (ha : h.objs[i]? = some a) :
    (step (.delete i) h).1 = .ok .done ∧
    ∀ p, (step (.delete i) h).2.w.files p = if a.data = .file p then none else h.w.files p := by
  obtain ⟨h', r1, r2, r3, b, hb, k1, k2⟩ := delete_abs hr.abs hi
  rw [ha] at hb
  cases hb
  have : step (.delete i) h = (.ok .done, h') := by simp only [step]; rw [Py.bind_ok r1]; rfl
  rw [this]
  refine ⟨rfl, fun p => ?_⟩
  split
  · exact k2 p (by assumption)
  · exact k1 p (by assumption)

/-- **C31 (other files).** Files which are not activation files are never touched, along any history. -/
theorem C31_user_files {w₀ : World} {h : Heap} {us : Values} (hr : Reach w₀ h us) (n : Nat) :
    h.w.files (.user n) = w₀.files (.user n) :=
  hr.abs.user n

/-- **C31 (nothing leaks), partial.** Along histories without `clear` and without `-`, starting without activation
files, every activation file belongs to a live activation. -/
theorem C31_no_leak_partial {w₀ : World} {h : Heap} {us : Values} (hr : ReachTidy w₀ h us)
    (h0 : ∀ n, w₀.files (.vec n) = none) : NoLeak h us := by
  induction hr with
  | start => intro n hn; exact absurd (h0 n) hn
  | step op ht hl hc hs ih => exact NoLeak.step op ht.reach.abs ih hl hc hs

/-- **C31, violation (clear leaks).** After `clear` of an activation stored in a file, the file exists and belongs
to nobody. -/
theorem C31_clear_leaks_false :
    ∃ (w₀ : World) (h : Heap) (us : Values), Reach w₀ h us ∧ (∀ n, w₀.files (.vec n) = none) ∧ ¬ NoLeak h us := by
  refine ⟨demoWorld, _, _, demo_reach.step (.clear 1) ⟨[true, true, false], rfl, Or.inr (by simp)⟩, fun _ => rfl, ?_⟩
  intro hn
  have h1 : (step (.clear 1) demo).2.w.files (.vec 0) ≠ none := by decide +kernel
  obtain ⟨i, u, a, _, ha, hd⟩ := hn 0 h1
  have h2 : (step (.clear 1) demo).2.objs.all (fun a => decide (a.data ≠ .file (.vec 0))) = true := by decide +kernel
  have h3 := List.all_eq_true.1 h2 a (List.mem_of_getElem? ha)
  simp [hd] at h3

/-- **C31, violation (`-` leaks).** `a - b` of two activations on disk leaves the file of its intermediate result
behind: it belongs to no live object. -/
theorem C31_sub_leaks_false :
    ∃ (w₀ : World) (h : Heap) (us : Values), Reach w₀ h us ∧ (∀ n, w₀.files (.vec n) = none) ∧ ¬ NoLeak h us := by
  refine ⟨demoWorld, _, _, demo_reach.step (.sub 3 1) ⟨[true, true, true], [true, true, false], rfl, Or.inr (by simp)⟩,
    fun _ => rfl, ?_⟩
  intro hn
  have h1 : (step (.sub 3 1) demo).2.w.files (.vec 2) ≠ none := by decide +kernel
  obtain ⟨i, u, a, hi, ha, hd⟩ := hn 2 h1
  have h2 : (step (.sub 3 1) demo).2.objs.map (·.data) =
      [.bits [true, false, true], .file (.vec 0), .text "1,1,3".toList, .file (.vec 1), .file (.vec 2), .file (.vec 3)] := by
    decide +kernel
  have h3 : (after demoValues (.sub 3 1) (step (.sub 3 1) demo).1 (step (.sub 3 1) demo).2.objs.length)[4]? =
      some none := by decide +kernel
  have h4 : ((step (.sub 3 1) demo).2.objs.map (·.data))[i]? = some (.file (.vec 2)) := by
    rw [List.getElem?_map, ha]; simp [hd]
  rw [h2] at h4
  have : i = 4 := by
    match i, h4 with
    | 0, h4 | 1, h4 | 2, h4 | 3, h4 | 5, h4 => simp at h4
    | 4, _ => rfl
    | n + 6, h4 => simp at h4
  subst this
  rw [h3] at hi
  cases hi

/-- **C31 (taken names), violation of the documented fallback.** When the file name drawn is taken, creation
raises; the vector is never kept in memory instead, and nothing on disk changes. -/
theorem C31_collision_raises {h : Heap} {u : List Bool} {len : Option Nat} (opt : Bool)
    (hs : h.w.storeRaw = false) (ht : h.w.files (.vec (h.w.rands h.w.nRands)) ≠ none) :
    ∃ e h', step (.new u (.arr (arr u)) opt len true) h = (.error e, h') ∧ h'.w.files = h.w.files ∧
      h'.objs = h.objs := by
  obtain ⟨e, he⟩ := construct_collision (opt := opt) (inp := .arr (arr u)) (len := len) (u := u) (w := h.w)
    (Or.inl rfl) (by simp only [Input.writes, arr_not_compressed]; rfl) hs ht
  have hn : new (.arr (arr u)) opt len true false h =
      (.error e, ⟨h.objs, { h.w with nRands := h.w.nRands + 1 }⟩) := by simp [new, he]
  exact ⟨e, _, Py.bind_err hn, rfl, rfl⟩

example : (step (mk [true, false] true) { demo with w := { demo.w with rands := fun _ => 0 } }).1 =
    .error .valueError := by decide +kernel

/-- **C31, violation (lasy).** Reading a lasy activation writes a second file without looking whether its name is
taken: here it destroys the file of another live activation. -/
theorem C31_lasy_overwrites_false :
    ∃ h h', step (.read .raw 1) h = (.ok (.array [1, 0]), h') ∧
      h.objs[0]?.map (·.data) = some (.file (.vec 7)) ∧ h.w.files (.vec 7) = some [0, 1, 1] ∧
      h'.objs[0]?.map (·.data) = some (.file (.vec 7)) ∧ h'.w.files (.vec 7) = some [1, 0] := by
  let w : World := { world .str false (fun _ => true) with
    files := fun p => if p = .user 0 then some [1, 0] else none
    rands := fun _ => 7 }
  let h0 := (step (mk [false, true, true] true) ⟨[], w⟩).2
  let h1 := (new (.path (.user 0)) true none false true h0).2
  refine ⟨h1, (step (.read .raw 1) h1).2, Prod.ext ?_ rfl, ?_, ?_, ?_, ?_⟩ <;> decide +kernel

/-- **C31, violation (double delete).** Deleting twice is not harmless: the second `delete` removes the file of
whichever activation reused the name. -/
theorem C31_double_delete_false :
    ∃ h h', step (.delete 0) h = (.ok .done, h') ∧ h.objs[1]?.map (·.data) = some (.file (.vec 7)) ∧
      h.w.files (.vec 7) = some [1, 0] ∧ h'.w.files (.vec 7) = none ∧
      (step (.read .raw 1) h').1 = .error .fileNotFound := by
  let w : World := { world .str false (fun _ => true) with rands := fun _ => 7 }
  let h0 := (step (mk [false, true, true] true) ⟨[], w⟩).2
  let h1 := (step (.delete 0) h0).2
  let h2 := (step (mk [true, false] true) h1).2
  refine ⟨h2, (step (.delete 0) h2).2, Prod.ext ?_ rfl, ?_, ?_, ?_, ?_⟩ <;> decide +kernel

/-- **C31 (clean_files).** Removes every activation file and no other. -/
theorem C31_clean_files (w : World) :
    (cleanFiles w).1 = .ok () ∧ (∀ n, (cleanFiles w).2.files (.vec n) = none) ∧
      ∀ n, (cleanFiles w).2.files (.user n) = w.files (.user n) :=
  ⟨rfl, fun _ => rfl, fun _ => rfl⟩

/-! ## C36 -/

/-- **C36, partial.** No operation on live activations, successful or not, changes the class-wide settings.
False for deleted ones, see `C36_settings_false`. -/
theorem C36_settings_partial {w₀ : World} {h : Heap} {us : Values} (op : Op) (hr : Reach w₀ h us)
    (hleg : Legal h.w us op) (hs : op.sets = false) :
    (step op h).2.w.dtype = h.w.dtype ∧ (step op h).2.w.willCompare = h.w.willCompare ∧
      (step op h).2.w.storeRaw = h.w.storeRaw :=
  (step_world op hr.abs hleg).1 hs

example : Legal demo.w demoValues (.read .integer 2) := ⟨[true, false, false], rfl⟩

/-- **C36 (assigned).** A setting which the user assigns is in force from then on; the other settings, the files and the activations stay. -/
theorem C36_assigned (h : Heap) (d : DType) (b : Bool) :
    step (.setDType d) h = (.ok .done, { h with w := { h.w with dtype := d } }) ∧
    step (.setWillCompare b) h = (.ok .done, { h with w := { h.w with willCompare := b } }) ∧
    step (.setStoreRaw b) h = (.ok .done, { h with w := { h.w with storeRaw := b } }) :=
  ⟨rfl, rfl, rfl⟩

example : demo.w.storeRaw = false ∧ (step (.setStoreRaw true) demo).2.w.storeRaw = true := by decide +kernel

/-- **C36, violation.** `as_integer` on a deleted compressed activation raises and leaves `WILL_COMPARE` switched on
for the whole program. -/
theorem C36_settings_false :
    ∃ h h', demo.w.willCompare = false ∧ h = (step (.delete 2) demo).2 ∧
      step (.read .integer 2) h = (.error .typeError, h') ∧ h.w.willCompare = false ∧ h'.w.willCompare = true := by
  refine ⟨_, (step (.read .integer 2) (step (.delete 2) demo).2).2, ?_, rfl, Prod.ext ?_ rfl, ?_, ?_⟩ <;> decide +kernel

/-- **C36, violation.** `as_bitarray` on a deleted compressed activation raises and leaves `WILL_COMPARE` switched off
for the whole program. -/
theorem C36_settings_off_false :
    ∃ h h', h = (step (.delete 2) (step (.setWillCompare true) demo).2).2 ∧
      step (.read .bitarray 2) h = (.error .typeError, h') ∧ h.w.willCompare = true ∧ h'.w.willCompare = false := by
  refine ⟨_, (step (.read .bitarray 2) (step (.delete 2) (step (.setWillCompare true) demo).2).2).2, rfl, Prod.ext ?_ rfl, ?_, ?_⟩ <;>
    decide +kernel

end Verif.ActivationProps
