import Verif.Num

/-!
# Texts of Python values

`str` of lists of texts, integers and floats, and `ast.literal_eval` of such texts, on which
`/repo/ruleskit/ruleset.py` relies to sort rules (lines 714-743), compare them (lines 48-52, 204-215) and save them
(lines 991-1047).

Simplifications.
* Characters are Unicode scalar values: no lone surrogates.
* Which characters beyond ASCII `repr` writes as they are (`str.isprintable`) is a parameter.
* How `repr` writes a finite float is a parameter, of which only what Python guarantees is used: it can be read back.
* `literal_eval` reads here the texts which `str` writes; what it makes of other texts is a parameter where it is used.
-/

namespace Verif

namespace PyText

/-- A hexadecimal digit, in small letters as `repr` writes it -/
def hexDigit (n : Nat) : Char := ['0', '1', '2', '3', '4', '5', '6', '7', '8', '9', 'a', 'b', 'c', 'd', 'e', 'f'].getD n '0'

/-- The value of a hexadecimal digit -/
def hexValue (c : Char) : Option Nat :=
  let i := ['0', '1', '2', '3', '4', '5', '6', '7', '8', '9', 'a', 'b', 'c', 'd', 'e', 'f'].idxOf c
  if i < 16 then some i else none

/-- A number written with `width` hexadecimal digits -/
def hex : Nat → Nat → List Char
  | 0, _ => []
  | width + 1, n => hex width (n / 16) ++ [hexDigit (n % 16)]

/-- Reading hexadecimal digits, `acc` being the number read so far -/
def readHex (acc : Nat) : List Char → Option Nat
  | [] => some acc
  | c :: rest =>
    match hexValue c with
    | none => none
    | some v => readHex (acc * 16 + v) rest

/-- The quote which `repr` puts around a text -/
def quoteOf (s : List Char) : Char := if '\'' ∈ s ∧ '"' ∉ s then '"' else '\''

/-- How `repr` writes one character of a text between the quotes `q` -/
def escape (printable : Char → Bool) (q c : Char) : List Char :=
  if c = q ∨ c = '\\' then ['\\', c]
  else if c = '\t' then ['\\', 't']
  else if c = '\n' then ['\\', 'n']
  else if c = '\r' then ['\\', 'r']
  else if 32 ≤ c.toNat ∧ c.toNat < 127 then [c]
  else if 127 < c.toNat ∧ printable c then [c]
  else if c.toNat < 256 then '\\' :: 'x' :: hex 2 c.toNat
  else if c.toNat < 65536 then '\\' :: 'u' :: hex 4 c.toNat
  else '\\' :: 'U' :: hex 8 c.toNat

/-- `repr` of a text -/
def text (printable : Char → Bool) (s : String) : List Char :=
  let q := quoteOf s.toList
  q :: (s.toList.flatMap (escape printable q) ++ [q])

/-- The character named by hexadecimal digits -/
def readHexEscape (width : Nat) (l : List Char) : Option (Char × List Char) :=
  if l.length < width then none
  else (readHex 0 (l.take width)).map fun n => (Char.ofNat n, l.drop width)

/-- What follows a backslash in the text of a text -/
def readEscape : List Char → Option (Char × List Char)
  | [] => none
  | c :: rest =>
    if c = 'x' then readHexEscape 2 rest
    else if c = 'u' then readHexEscape 4 rest
    else if c = 'U' then readHexEscape 8 rest
    else if c = 't' then some ('\t', rest)
    else if c = 'n' then some ('\n', rest)
    else if c = 'r' then some ('\r', rest)
    else if c = '\'' ∨ c = '"' ∨ c = '\\' then some (c, rest)
    else none

/-- Reading the characters up to the closing quote `q`; at most `fuel` of them. -/
def readChars (q : Char) : Nat → List Char → Option (List Char × List Char)
  | 0, _ => none
  | _ + 1, [] => none
  | fuel + 1, c :: rest =>
    if c = q then some ([], rest)
    else if c = '\\' then
      match readEscape rest with
      | none => none
      | some (d, rest) => (readChars q fuel rest).map fun p => (d :: p.1, p.2)
    else (readChars q fuel rest).map fun p => (c :: p.1, p.2)

/-- Reading a text between quotes -/
def readText (l : List Char) : Option (String × List Char) :=
  match l with
  | [] => none
  | q :: rest =>
    if q = '\'' ∨ q = '"' then (readChars q rest.length rest).map fun p => (String.ofList p.1, p.2) else none

/-- A decimal digit -/
def digit (n : Nat) : Char := ['0', '1', '2', '3', '4', '5', '6', '7', '8', '9'].getD n '0'

/-- The value of a decimal digit -/
def digitValue (c : Char) : Option Nat :=
  let i := ['0', '1', '2', '3', '4', '5', '6', '7', '8', '9'].idxOf c
  if i < 10 then some i else none

/-- `str` of an integer which is not negative -/
def nat (n : Nat) : List Char := if n < 10 then [digit n] else nat (n / 10) ++ [digit (n % 10)]
decreasing_by omega

/-- Reading decimal digits as far as they go -/
def readDigits (acc : Nat) : List Char → Nat × List Char
  | [] => (acc, [])
  | c :: rest =>
    match digitValue c with
    | none => (acc, c :: rest)
    | some v => readDigits (acc * 10 + v) rest

/-- Reading an integer which is not negative: at least one digit -/
def readNat (l : List Char) : Option (Nat × List Char) :=
  match l with
  | [] => none
  | c :: rest =>
    match digitValue c with
    | none => none
    | some v => some (readDigits v rest)

/-- `str` of an integer -/
def int (i : Int) : List Char := if i < 0 then '-' :: nat i.natAbs else nat i.natAbs

/-- Reading an integer -/
def readInt (l : List Char) : Option (Int × List Char) :=
  match l with
  | [] => none
  | c :: rest =>
    if c = '-' then (readNat rest).map fun p => (-(p.1 : Int), p.2) else (readNat (c :: rest)).map fun p => ((p.1 : Int), p.2)

/-- `repr` of finite floats and the reading of them.  Python guarantees that a float is read back from its `repr`; in a list
it is followed by a comma or the closing bracket. -/
structure Floats where
  write : Rat → List Char
  read : List Char → Option (Rat × List Char)
  read_write : ∀ (x : Rat) (rest : List Char), rest = [] ∨ (∃ t, rest = ',' :: t) ∨ (∃ t, rest = ']' :: t) →
    read (write x ++ rest) = some (x, rest)
  /-- it begins with a digit, or with `-` and a digit -/
  write_head : ∀ x, ∃ c t, (digitValue c).isSome = true ∧ (write x = c :: t ∨ write x = '-' :: c :: t)

/-- `str` of a float -/
def num (F : Floats) : Num → List Char
  | .fin x => F.write x
  | .nan => ['n', 'a', 'n']
  | .inf => ['i', 'n', 'f']
  | .ninf => ['-', 'i', 'n', 'f']

/-- What follows a text, if it begins with it -/
def after : List Char → List Char → Option (List Char)
  | [], l => some l
  | _ :: _, [] => none
  | p :: ps, c :: l => if p = c then after ps l else none

/-- Reading a float, or the names `nan` and `inf` which `str` writes -/
def readNum (F : Floats) (l : List Char) : Option (Num × List Char) :=
  match after ['n', 'a', 'n'] l with
  | some rest => some (.nan, rest)
  | none =>
    match after ['i', 'n', 'f'] l with
    | some rest => some (.inf, rest)
    | none =>
      match after ['-', 'i', 'n', 'f'] l with
      | some rest => some (.ninf, rest)
      | none => (F.read l).map fun p => (.fin p.1, p.2)

/-- The elements of a list after the first one, and the bracket -/
def items {α : Type} (f : α → List Char) : List α → List Char
  | [] => [']']
  | a :: l => ',' :: ' ' :: (f a ++ items f l)

/-- `str` of a list -/
def list {α : Type} (f : α → List Char) : List α → List Char
  | [] => ['[', ']']
  | a :: l => '[' :: (f a ++ items f l)

/-- Reading the elements of a list after the first one; at most `fuel` of them -/
def readItems {α : Type} (read : List Char → Option (α × List Char)) : Nat → List Char → Option (List α × List Char)
  | 0, _ => none
  | fuel + 1, l =>
    match after [']'] l with
    | some rest => some ([], rest)
    | none =>
      match after [',', ' '] l with
      | none => none
      | some rest =>
        match read rest with
        | none => none
        | some (a, rest) => (readItems read fuel rest).map fun p => (a :: p.1, p.2)

/-- Reading a list -/
def readList {α : Type} (read : List Char → Option (α × List Char)) (l : List Char) : Option (List α × List Char) :=
  match after ['[', ']'] l with
  | some rest => some ([], rest)
  | none =>
    match after ['['] l with
    | none => none
    | some rest =>
      match read rest with
      | none => none
      | some (a, rest) => (readItems read rest.length rest).map fun p => (a :: p.1, p.2)

/-- `str` of `None` or of a list -/
def option {α : Type} (f : α → List Char) : Option (List α) → List Char
  | none => ['N', 'o', 'n', 'e']
  | some l => list f l

/-- Reading `None` or a list -/
def readOption {α : Type} (read : List Char → Option (α × List Char)) (l : List Char) : Option (Option (List α) × List Char) :=
  match after ['N', 'o', 'n', 'e'] l with
  | some rest => some (none, rest)
  | none => (readList read l).map fun p => (some p.1, p.2)

end PyText

end Verif
