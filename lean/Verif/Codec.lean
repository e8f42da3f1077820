import Verif.Py

/-!
# The encodings of an activation vector

Transcription of the pure conversion functions of `/repo/ruleskit/activation.py`.

A numpy array of non-negative integers is a `List Nat`: the code uses the same type for a raw vector
(cells 0/1) and for a compressed one and tells them apart by the last cell, so the model does too.
A bitarray is a `List Bool`, a Python int a `Nat` (negative integers are not activation vectors and are not
modelled), a text a `List Char`.
-/

namespace Verif.Codec

open Verif

/-- A numpy array of non-negative integers. -/
abbrev Arr := List Nat

/-- `Activation.DTYPE`, `/repo/ruleskit/activation.py` line 38: `str` or `np.ndarray`. -/
inductive DType where
  | str
  | ndarray
  deriving DecidableEq, Repr

/-- `abs(np.diff(value))`, line 1085.  The cast to signed bytes (line 1079) is the identity on cells 0/1,
the only ones for which the code gets there with a meaning; it is not modelled for larger cells. -/
def absDiff : Arr → Arr
  | a :: b :: t => ((b - a) + (a - b)) :: absDiff (b :: t)
  | _ => []

/-- `np.where(arr == 1)[0]`, line 1086, for an array whose first cell has position `i`. -/
def whereOne : Nat → Arr → List Nat
  | _, [] => []
  | i, x :: t => if x = 1 then i :: whereOne (i + 1) t else whereOne (i + 1) t

/-- The list built by `Activation._compress`, lines 1084-1087, for a non-empty raw vector: first value,
positions of the changes, length. -/
def compressList (a : Nat) (t : Arr) : List Nat :=
  [a] ++ (whereOne 0 (absDiff (a :: t))).map (· + 1) ++ [(a :: t).length]

/-- Decimal digits of a Python int, most significant first (`str(n)`). -/
def digits (n : Nat) : List Char :=
  if _h : n < 10 then [Char.ofNat (48 + n)] else digits (n / 10) ++ [Char.ofNat (48 + n % 10)]
termination_by n
decreasing_by omega

/-- `str(to_ret).replace(" ", "").replace("[", "").replace("]", "")`, line 1089 and line 1408: the decimal
numbers separated by commas. -/
def render : List Nat → List Char
  | [] => []
  | [n] => digits n
  | n :: t => digits n ++ ',' :: render t

/-- What `_compress` returns. -/
inductive Compressed where
  | text (s : List Char)
  | array (a : Arr)
  deriving DecidableEq, Repr

/-- `Activation._compress`, lines 1059-1095, applied to a numpy array.  An array which does not end by
0 or 1 is returned unchanged (line 1076); an empty one gives an empty *array* whatever `dtype`
(lines 1080-1081).  The choice between int32 and int64 (lines 1091-1094) is not modelled: cells are exact. -/
def compress (v : Arr) (dtype : DType) : Compressed :=
  match v with
  | [] => .array []
  | a :: t =>
    if v.getLast? = some 0 ∨ v.getLast? = some 1 then
      match dtype with
      | .str => .text (render (compressList a t))
      | .ndarray => .array (compressList a t)
    else .array v

/-- A Python literal, as far as it matters here. -/
inductive Lit where
  | int (n : Nat)
  | tuple (l : List Nat)
  deriving DecidableEq, Repr

/-- Split a text at the commas. -/
def splitComma : List Char → List (List Char)
  | [] => [[]]
  | c :: t =>
    if c = ',' then [] :: splitComma t
    else match splitComma t with
      | [] => [[c]]
      | w :: ws => (c :: w) :: ws

/-- The decimal value of a word of digits; `none` for anything else.  Python refuses leading zeros in a
non-zero literal. -/
def parseNat (w : List Char) : Option Nat :=
  if w = [] ∨ ¬ w.all Char.isDigit then none
  else
    let n := w.foldl (fun acc c => acc * 10 + (c.toNat - 48)) 0
    if w.head? = some '0' ∧ n ≠ 0 then none else some n

/-- `ast.literal_eval` (used at lines 382, 468, 983, 1200, ...) on a text made of blanks, digits and commas.
Any other text is reported as a `SyntaxError`; Python would accept more (signs, brackets, other types), a
simplification which only concerns texts that are not compressed vectors. -/
def literalEval (s : List Char) : Except Err Lit :=
  let words := splitComma (s.filter (· ≠ ' '))
  match words with
  | [w] => match parseNat w with
    | some n => .ok (.int n)
    | none => .error .syntaxError
  | _ =>
    -- a trailing comma is allowed
    let words := if words.getLast? = some [] then words.dropLast else words
    match words.mapM parseNat with
    | some l => .ok (.tuple l)
    | none => .error .syntaxError

/-- `s[i:j] = np.ones(j - i)` on an array of length `len(s)`, line 1010: numpy raises `ValueError` when
`j < i` (negative dimension) or when the (clipped) slice has another size than the right-hand side, unless
the right-hand side has size one. -/
def fillOnes (s : Arr) (i j : Nat) : Except Err Arr :=
  if j < i then .error .valueError
  else
    let i' := min i s.length
    let j' := min j s.length
    if j' - i' = j - i ∨ j - i = 1 then
      .ok (s.take i' ++ List.replicate (j' - i') 1 ++ s.drop j')
    else .error .valueError

/-- The loop of lines 1005-1012; `open?` is `previous_value == 1` and `prev` is `previous_index`. -/
def fillLoop : Arr → Bool → Nat → List Nat → Except Err Arr
  | s, _, _, [] => .ok s
  | s, false, _, index :: rest => fillLoop s true index rest
  | s, true, prev, index :: rest => do
    let s ← fillOnes s prev index
    fillLoop s false index rest

/-- The decompression proper, lines 993-1013, of a sequence of integers. -/
def expand (act : List Nat) : Except Err Arr :=
  match act with
  | [] => .error .indexError                                   -- act[-1]
  | first :: rest =>
    let length := (first :: rest).getLast (by simp)            -- line 993
    let s := List.replicate length 0                           -- line 994
    -- lines 998-1000
    if first = 1 ∧ length = 0 then .error .indexError
    else
      let s := if first = 1 then 1 :: s.tail else s
      if act.length = 2 then                                   -- lines 1001-1003
        .ok (if first = 1 then List.replicate length 1 else s)
      else fillLoop s (first = 1) 0 rest                       -- lines 1005-1012

/-- `Activation._decompress(value, raw=True)`, lines 924-1024, for an array: a non-empty array which ends
by 0 or 1 is taken to be raw already (lines 973-980, with the cast to unsigned bytes). -/
def decompressArr (v : Arr) : Except Err Arr :=
  match v.getLast? with
  | none => .ok []                                             -- lines 959-965
  | some x =>
    if x = 0 ∨ x = 1 then .ok (v.map (· % 256))
    else expand v

/-- `Activation._decompress(value, raw=True)`, lines 924-1024, for a text.  The last character of a text is
never equal to the integers 0 or 1, so line 973 does not apply. -/
def decompressStr (s : List Char) : Except Err Arr :=
  if s = [] then .ok []                                        -- lines 959-972
  else do
    match ← literalEval s with
    | .int _ => .error .typeError                              -- an int has no act[-1], line 993
    | .tuple l => expand l

/-- `bin(n)[2:]` as a list of cells, most significant first. -/
def binDigits (n : Nat) : Arr :=
  if _h : n < 2 then [n] else binDigits (n / 2) ++ [n % 2]
termination_by n
decreasing_by omega

/-- `Activation._integer_to_raw`, lines 833-882, on an int. -/
def integerToRaw (value length : Nat) : Except Err Arr :=
  let act := binDigits value                                   -- line 863
  if act.length > length then .error .valueError               -- lines 867-872
  else .ok (List.replicate (length - act.length) 0 ++ act)     -- lines 873-874

/-- `Activation._raw_to_integer`, lines 1110-1126, on an array: `int(s, 2)` refuses the empty text and
digits other than 0 and 1. -/
def rawToInteger (v : Arr) : Except Err Nat :=
  match v.getLast? with
  | none => .error .valueError
  | some x =>
    if x ≠ 0 ∧ x ≠ 1 then .error .typeError                    -- lines 1121-1122
    else if v.all (· % 256 ≤ 1) then
      .ok (v.foldl (fun acc b => 2 * acc + b % 256) 0)         -- line 1125
    else .error .valueError

/-- `Activation._bitarray_to_raw`, lines 884-922, on a bitarray. -/
def bitarrayToRaw (b : List Bool) : Arr := b.map Bool.toNat

/-- `Activation._raw_to_bitarray`, lines 1098-1107, on an array.  `bitarray(list)` refuses cells other than
0 and 1 with a `ValueError`. -/
def rawToBitarray (v : Arr) : Except Err (List Bool) :=
  match v.getLast? with
  | none => .ok []
  | some x =>
    if x ≠ 0 ∧ x ≠ 1 then .error .typeError
    else if v.all (· ≤ 1) then .ok (v.map (· == 1)) else .error .valueError

/-- The conversion of an int to a bitarray in the constructor, lines 219-227, and in `as_bitarray`, lines
1272-1275: pad on the left with zeros.  `"0" * k` is empty for a negative `k`. -/
def integerToBitarray (value length : Nat) : List Bool :=
  let s := (binDigits value).map (· == 1)
  List.replicate (length - s.length) false ++ s

/-- `int(str(bitarray), 2)`, lines 237-239 and 1317: refuses an empty bitarray. -/
def bitarrayToInteger (b : List Bool) : Except Err Nat :=
  match b with
  | [] => .error .valueError
  | _ => .ok (b.foldl (fun acc x => 2 * acc + x.toNat) 0)

end Verif.Codec
