import Verif.CodecLemmas

/-!
# Properties C01 and C02: the encodings of an activation vector lose nothing
-/

namespace Verif.CodecProps

open Verif Verif.Spec Verif.Codec

/-! ## C01 -/

/-- **C01 (text form).** Compressing any non-empty 0/1 vector to text and decompressing the text gives the
vector back. -/
theorem C01_text_roundtrip (u : List Bool) (hu : u ≠ []) :
    ∃ s, compress (arr u) .str = .text s ∧ decompressStr s = .ok (arr u) := by
  cases u with
  | nil => exact absurd rfl hu
  | cons x t => exact ⟨_, compress_str x t, decompressStr_compressList x t⟩

example : ∃ s, compress (arr [false, true, true, false]) .str = .text s ∧
    decompressStr s = .ok [0, 1, 1, 0] := C01_text_roundtrip _ (by simp)

/-- **C01 (no point at all).** The vector without points compresses to the empty array whichever form is asked
for, and both empty values, the array and the text, decompress to the vector without points. -/
theorem C01_no_points (d : DType) :
    compress (arr []) d = .array [] ∧ decompressArr [] = .ok (arr []) ∧ decompressStr [] = .ok (arr []) := by
  cases d <;> exact ⟨rfl, rfl, rfl⟩

example : decompressStr "".toList = .ok [] := by decide

/-- **C01 (array form), partial.** The same for the array form, for vectors of at least two points.  The
full statement would cover every non-empty vector; it is false for one-point vectors, see
`C01_array_one_point_wrong`. -/
theorem C01_array_roundtrip_partial (u : List Bool) (hu : 2 ≤ u.length) :
    ∃ c, compress (arr u) .ndarray = .array c ∧ decompressArr c = .ok (arr u) := by
  match u, hu with
  | x :: y :: t, _ => exact ⟨_, compress_ndarray x (y :: t), decompressArr_compressList x (y :: t) (by simp)⟩

example : 2 ≤ [true, false].length := by simp

/-- **C01 (array form), violation.** A one-point vector in array form decompresses to a *two-point* vector:
its compressed form `[value, 1]` is mistaken for a raw vector. -/
theorem C01_array_one_point_wrong (x : Bool) :
    ∃ c, compress (arr [x]) .ndarray = .array c ∧ decompressArr c = .ok (arr [x, true]) := by
  cases x <;> exact ⟨_, rfl, by decide⟩

/-- **C01, negation of the full array statement.** -/
theorem C01_array_roundtrip_false :
    ¬ ∀ u : List Bool, u ≠ [] →
      ∃ c, compress (arr u) .ndarray = .array c ∧ decompressArr c = .ok (arr u) := by
  intro h
  obtain ⟨c, h1, h2⟩ := h [true] (by simp)
  obtain ⟨c', h1', h2'⟩ := C01_array_one_point_wrong true
  rw [h1] at h1'
  cases h1'
  rw [h2] at h2'
  simp [arr] at h2'

/-- **C01 (documented format).** The array form is: the first value, the increasing positions of the changes
of value, the length; the text form is its rendering (see `C01_text_form`). -/
theorem C01_format (x : Bool) (t : List Bool) :
    compress (arr (x :: t)) .ndarray =
      .array ([x.toNat] ++ changes (x :: t) ++ [(x :: t).length]) := by
  rw [compress_ndarray, compressList_eq, chg_eq_changes]
  simp

example : compress [0, 1, 1, 0] .ndarray = .array [0, 1, 3, 4] := by decide

/-- **C01 (text is the array).** Reading the text form as a tuple of integers gives the array form. -/
theorem C01_text_form (u : List Bool) (hu : u ≠ []) :
    ∃ s c, compress (arr u) .str = .text s ∧ compress (arr u) .ndarray = .array c ∧
      literalEval s = .ok (.tuple c) := by
  cases u with
  | nil => exact absurd rfl hu
  | cons x t =>
    refine ⟨_, _, compress_str x t, compress_ndarray x t, ?_⟩
    rw [compressList_eq]
    cases h : chg 0 x t ++ [t.length + 1] with
    | nil => simp at h
    | cons b l => exact literalEval_render _ b l

/-- **C01 (no two vectors share a compressed form)**, in either representation. -/
theorem C01_injective (u v : List Bool) (d : DType) (hu : u ≠ []) (hv : v ≠ [])
    (h : compress (arr u) d = compress (arr v) d) : u = v := by
  have key : ∀ w : List Bool, w ≠ [] → ∃ c, compress (arr w) .ndarray = .array c ∧
      expand c = .ok (arr w) := by
    intro w hw
    cases w with
    | nil => exact absurd rfl hw
    | cons x t => exact ⟨_, compress_ndarray x t, expand_compressList x t⟩
  cases d with
  | str =>
    obtain ⟨s, h1, h2⟩ := C01_text_roundtrip u hu
    obtain ⟨s', h1', h2'⟩ := C01_text_roundtrip v hv
    rw [h1, h1'] at h
    cases h
    rw [h2] at h2'
    exact arr_injective (Except.ok.inj h2')
  | ndarray =>
    obtain ⟨s, h1, h2⟩ := key u hu
    obtain ⟨s', h1', h2'⟩ := key v hv
    rw [h1, h1'] at h
    cases h
    rw [h2] at h2'
    exact arr_injective (Except.ok.inj h2')

example : compress (arr [true]) .str ≠ compress (arr [true, true]) .str := by
  intro h; have := C01_injective _ _ _ (by simp) (by simp) h; simp at this

/-- **C01 (every well-formed compressed text is readable).** A text listing a first value 0 or 1, strictly
increasing positions strictly inside the vector, and a length `n ≥ 1`, is accepted; the vector read has
length `n`, and compressing it gives the same text again. -/
theorem C01_text_readable (x : Bool) (ps : List Nat) (n : Nat) (hn : 1 ≤ n)
    (hinc : ps.Pairwise (· < ·)) (hin : ∀ p ∈ ps, 0 < p ∧ p < n) :
    ∃ u : List Bool, u.length = n ∧ decompressStr (render ([x.toNat] ++ ps ++ [n])) = .ok (arr u) ∧
      compress (arr u) .str = .text (render ([x.toNat] ++ ps ++ [n])) := by
  obtain ⟨t, h1, h2⟩ := exists_chg (n - 1) 0 x ps hinc (fun p hp => by have := hin p hp; omega)
  have hn' : t.length + 1 = n := by omega
  have hc : compressList x.toNat (arr t) = [x.toNat] ++ ps ++ [n] := by
    rw [compressList_eq, h2, hn']; simp
  refine ⟨x :: t, by simp [hn'], ?_, ?_⟩
  · rw [← hc]; exact decompressStr_compressList x t
  · rw [← hc]; exact compress_str x t

example : [2, 5].Pairwise (· < ·) ∧ ∀ p ∈ [2, 5], 0 < p ∧ p < 9 := by decide

/-- **C01 (a lone number).** A text which is one number is no compressed vector: reading it raises `TypeError`. -/
theorem C01_lone_number (n : Nat) : decompressStr (render [n]) = .error .typeError := by
  have hl : literalEval (render [n]) = .ok (.int n) := by
    simp only [literalEval, render_noBlank]
    rw [splitComma_render]
    simp only [List.map_cons, List.map_nil, parseNat_digits]
  unfold decompressStr
  rw [if_neg (by simpa [render] using digits_ne_nil n), hl]
  rfl

example : render [12] = ['1', '2'] := by decide +kernel

/-! ## C02 -/

/-- **C02 (meaning).** The integer form of a non-empty vector is the number it writes in base two. -/
theorem C02_integer_value (u : List Bool) (hu : u ≠ []) : rawToInteger (arr u) = .ok (numeral u) := by
  rw [rawToInteger_arr u hu, bitsVal_eq_numeral]

/-- **C02 (round trip).** Vector to integer and back, with the length of the vector. -/
theorem C02_integer_roundtrip (u : List Bool) (hu : u ≠ []) :
    ∃ n, rawToInteger (arr u) = .ok n ∧ integerToRaw n u.length = .ok (arr u) :=
  ⟨_, C02_integer_value u hu, by rw [← bitsVal_eq_numeral]; exact integerToRaw_bitsVal u hu⟩

example : rawToInteger [0, 1, 1, 0] = .ok 6 ∧ integerToRaw 6 4 = .ok [0, 1, 1, 0] := by
  constructor
  · decide
  · simp [integerToRaw, binDigits]

/-- **C02 (reading an integer).** For a positive declared length an integer is read exactly when it fits, and
then gives the only vector of this length which writes it; otherwise the reading raises `ValueError`. -/
theorem C02_integer_read (n len : Nat) (hlen : 1 ≤ len) :
    (n < 2 ^ len → ∃ u, integerToRaw n len = .ok (arr u) ∧ u.length = len ∧ numeral u = n) ∧
    (2 ^ len ≤ n → integerToRaw n len = .error .valueError) := by
  constructor
  · intro h
    obtain ⟨u, h1, h2⟩ := exists_numeral len n h
    have hne : u ≠ [] := by intro hc; subst hc; simp at h1; omega
    exact ⟨u, (integerToRaw_ok_iff n len _).2 ⟨u, hne, h1, h2, rfl⟩, h1, h2⟩
  · intro h
    have := mt (binDigits_length n len hlen).1 (by omega)
    simp only [integerToRaw, if_pos (Nat.not_le.1 this)]

/-- Distinct vectors of the same length write distinct numbers. -/
theorem C02_integer_injective (u v : List Bool) (hl : u.length = v.length)
    (h : numeral u = numeral v) : u = v := by
  by_cases hu : u = []
  · subst hu
    exact (List.length_eq_zero_iff.1 hl.symm).symm
  · have hv : v ≠ [] := by intro hc; subst hc; simp at hl; exact hu hl
    have h1 := integerToRaw_bitsVal u hu
    have h2 := integerToRaw_bitsVal v hv
    rw [bitsVal_eq_numeral, h, hl] at h1
    rw [bitsVal_eq_numeral, h1] at h2
    exact arr_injective (Except.ok.inj h2)

/-- **C02 (bitarrays).** Going through a bitarray loses nothing either, and the integer of a bitarray is the
one of the raw vector. -/
theorem C02_bitarray (u : List Bool) (hu : u ≠ []) :
    bitarrayToRaw u = arr u ∧ rawToBitarray (arr u) = .ok u ∧
    bitarrayToInteger u = .ok (numeral u) ∧ integerToBitarray (numeral u) u.length = u := by
  refine ⟨rfl, rawToBitarray_arr u, ?_, ?_⟩
  · rw [bitarrayToInteger_eq u hu, bitsVal_eq_numeral]
  · rw [← bitsVal_eq_numeral]; exact integerToBitarray_bitsVal u hu

example : integerToBitarray (numeral [false, false, true]) 3 = [false, false, true] :=
  (C02_bitarray _ (by simp)).2.2.2

end Verif.CodecProps
