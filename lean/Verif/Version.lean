import Verif.Py
import Verif.PyText
import Mathlib.Data.List.Dedup
import Mathlib.Data.List.Sort

/-!
# The version of the package

`/repo/ruleskit/_version.py`: `get_versions`, whose `"version"` is `ruleskit.__version__` (`/repo/ruleskit/__init__.py` lines 8-9), with the
configuration of the package (lines 39-50): style "pep440", tags with the prefix "v", directories with the prefix "ruleskit-".

Simplifications: texts are lists of characters; digits are the ten decimal digits (`\d` and `int` also know other ones, and `int` signs and spaces);
white space is the ASCII one; lines end with a line feed; nothing is printed. The other styles of rendering (lines 397-576) are never used with
this configuration and not modelled; neither is `git_get_keywords` (lines 140-164), which this file does not call. A command of git either succeeds with
its output or fails (lines 72-112: the output is `None` exactly when the code is not 0).
-/

namespace Verif

namespace Version

/-- A text -/
abbrev Txt := List Char

/-- What goes wrong: `NotThisMethod` (lines 53-54), which `get_versions` catches, or another exception, which leaves the import of the package -/
inductive Fail where
  | notThis
  | err (e : Err)
  deriving DecidableEq, Repr

/-- White space, as `str.strip` removes it -/
def isBlank (c : Char) : Bool := c = ' ' || c = '\t' || c = '\n' || c = '\r' || c = '\x0b' || c = '\x0c'

/-- Removing the characters with `p` from both ends: `str.strip` -/
def stripOf (p : Char → Bool) (t : Txt) : Txt := ((t.dropWhile p).reverse.dropWhile p).reverse

/-- `str.strip()` -/
def strip (t : Txt) : Txt := stripOf isBlank t

/-- `str.splitlines` -/
def splitLines : Txt → List Txt
  | [] => []
  | c :: t =>
    if c = '\n' then [] :: splitLines t
    else match splitLines t with
      | [] => [[c]]
      | l :: ls => (c :: l) :: ls

/-- `str.replace(" ", new, 1)` -/
def replaceBlank (new : Txt) : Txt → Txt
  | [] => []
  | c :: t => if c = ' ' then new ++ t else c :: replaceBlank new t

/-- The date, lines 172-184 and 356-360: the last line, with the first space replaced by `T` and the second one removed -/
def dateOf (t : Txt) : Except Fail Txt :=
  match (splitLines t).getLast? with
  | none => .error (.err .indexError)
  | some l => .ok (replaceBlank [] (replaceBlank ['T'] (strip l)))

/-- The text after a given beginning: `r[len(p):]` if `r.startswith(p)` -/
def dropStart (p t : Txt) : Option Txt := PyText.after p t

/-- Whether the character is a digit -/
def isDigit (c : Char) : Bool := (PyText.digitValue c).isSome

/-- Whether the character is a digit of a hash, `[0-9a-f]` -/
def isHex (c : Char) : Bool := (PyText.hexValue c).isSome

/-- `int` of a text of digits -/
def intOf (t : Txt) : Option Nat := if t ≠ [] ∧ t.all isDigit = true then some (PyText.readDigits 0 t).1 else none

/-- What `get_versions` returns -/
structure Info where
  version : Txt
  full : Option Txt
  dirty : Option Bool
  error : Option Txt
  date : Option Txt
  deriving DecidableEq, Repr

/-- `get_keywords`, lines 22-32: what `git archive` wrote into the file -/
structure Keywords where
  refnames : Option Txt
  full : Option Txt
  date : Option Txt

/-- Whether the tag is a version: the prefix and then a digit, lines 210-216; the rest of it -/
def versionTag (pre t : Txt) : Option Txt :=
  match dropStart pre t with
  | none => none
  | some r => if (r.head?.map isDigit).getD false then some r else none

/-- The names in the keyword, line 190: a set -/
def refsOf (t : Txt) : List Txt := (((stripOf (fun c => c = '(' || c = ')') t).splitOn ',').map strip).dedup

/-- The tags among the names, lines 191-203: those marked as tags, or else the names with a digit -/
def tagsOf (refs : List Txt) : List Txt :=
  let tags := (refs.filterMap (dropStart "tag: ".toList)).dedup
  if tags = [] then refs.filter fun r => r.any isDigit else tags

/-- `sorted` of texts, line 208 -/
def sortTexts (l : List Txt) : List Txt := l.insertionSort (· ≤ ·)

/-- `git_versions_from_keywords`, lines 168-228 -/
def fromKeywords (k : Keywords) (pre : Txt) : Except Fail Info := do
  let refnames ← k.refnames.elim (.error .notThis) .ok
  let date ← k.date.elim (.ok none) fun d => (dateOf d).map some
  let refnames := strip refnames
  if (dropStart "$Format".toList refnames).isSome then .error .notThis
  else
    match (sortTexts (tagsOf (refsOf refnames))).findSome? (versionTag pre) with
    | some r => do
      let full ← k.full.elim (.error (.err .keyError)) .ok
      .ok ⟨r, some (strip full), some false, none, date⟩
    | none => do
      let full ← k.full.elim (.error (.err .keyError)) .ok
      .ok ⟨"0+unknown".toList, some (strip full), some false, some "no suitable tags".toList, none⟩

/-- The commands of git, in lines 252-356 -/
inductive Cmd where
  | gitDir
  | describe
  | head
  | branch
  | contains
  | count
  | date
  deriving DecidableEq, Repr

/-- The pieces of a version, lines 273-360 -/
structure Pieces where
  long : Txt
  short : Txt
  error : Option Txt
  branch : Option Txt
  dirty : Bool
  tag : Option Txt
  distance : Nat
  date : Option Txt
  deriving DecidableEq, Repr

/-- The last `-` and what is before and after it -/
def lastDash (t : Txt) : Option (Txt × Txt) :=
  if '-' ∈ t then
    some ((t.reverse.dropWhile (· ≠ '-')).tail.reverse, (t.reverse.takeWhile (· ≠ '-')).reverse)
  else none

/-- The regular expression `^(.+)-(\d+)-g([0-9a-f]+)$`, line 325 -/
def parseDescribe (t : Txt) : Option (Txt × Nat × Txt) := do
  let (front, hash) ← lastDash t
  let hex ← dropStart ['g'] hash
  let (tag, number) ← lastDash front
  let n ← intOf number
  if hex ≠ [] ∧ hex.all isHex = true ∧ tag ≠ [] ∧ '\n' ∉ tag then some (tag, n, hex) else none

/-- The output of a command, or `NotThisMethod` if it fails -/
def need (o : Option Txt) : Except Fail Txt := o.elim (.error .notThis) .ok

/-- The branch, lines 278-309 -/
def branchOf (run : Cmd → Option Txt) : Except Fail (Option Txt) := do
  let name ← need (run .branch)
  if strip name = "HEAD".toList then do
    let out ← need (run .contains)
    let lines := out.splitOn '\n'
    let lines := if '(' ∈ lines.headD [] then lines.tail else lines
    let names := lines.map (·.drop 2)
    .ok (if "master".toList ∈ names then some "master".toList else names.head?)
  else .ok (some (strip name))

/-- Whether the tree has changes, and the text without the mark, lines 315-319 -/
def splitDirty (t : Txt) : Bool × Txt :=
  let mark := "-dirty".toList
  if mark <:+ t then (true, t.take (t.length - mark.length)) else (false, t)

/-- The date of the commit, lines 356-360; the output of the command which failed is `None`, which has no `strip` -/
def commitDate (run : Cmd → Option Txt) : Except Fail Txt := do
  let d ← (run .date).elim (.error (.err .attributeError)) .ok
  dateOf (strip d)

/-- The number of commits, lines 352-353; `int(None)` is a `TypeError` -/
def countOf (run : Cmd → Option Txt) : Except Fail Nat := do
  let c ← (run .count).elim (.error (.err .typeError)) .ok
  (intOf c).elim (.error (.err .valueError)) .ok

/-- Lines 325-347: the pieces of a text with a tag -/
def taggedPieces (pre : Txt) (base : Pieces) (describeOut text : Txt) : Pieces :=
  match parseDescribe text with
  | none => { base with error := some ("unable to parse git-describe output: '".toList ++ describeOut ++ ['\'']) }
  | some (tag, n, hex) =>
    match dropStart pre tag with
    | none => { base with error := some ("tag '".toList ++ tag ++ "' doesn't start with prefix '".toList ++ pre ++ ['\'']) }
    | some rest => { base with tag := some rest, distance := n, short := hex }

/-- `git_pieces_from_vcs`, lines 232-362; `out` says what the commands of git print, of which `run_command` (line 106) strips the white space -/
def gitPieces (pre : Txt) (out : Cmd → Option Txt) : Except Fail Pieces := do
  let run := fun c => (out c).map strip
  let _ ← need (run .gitDir)
  let describeOut ← need (run .describe)
  let full ← need (run .head)
  let branch ← branchOf run
  let d := splitDirty (strip describeOut)
  let base : Pieces := { long := strip full, short := (strip full).take 7, error := none, branch, dirty := d.1, tag := none, distance := 0,
                         date := none }
  if '-' ∈ d.2 then
    let p := taggedPieces pre base (strip describeOut) d.2
    if p.error.isSome then .ok p
    else do
      let date ← commitDate run
      .ok { p with date := some date }
  else do
    let n ← countOf run
    let date ← commitDate run
    .ok { base with distance := n, date := some date }

/-- `plus_or_dot`, lines 365-369 -/
def plusOrDot (tag : Txt) : Txt := if '+' ∈ tag then ['.'] else ['+']

/-- `"%d.g%s"` and the mark of a tree with changes, lines 385-387 and 390-393 -/
def localPart (p : Pieces) : Txt :=
  PyText.nat p.distance ++ ".g".toList ++ p.short ++ if p.dirty then ".dirty".toList else []

/-- `render_pep440`, lines 372-394; an empty tag is false -/
def renderPep440 (p : Pieces) : Txt :=
  match p.tag with
  | some (c :: t) => (c :: t) ++ if p.distance ≠ 0 ∨ p.dirty = true then plusOrDot (c :: t) ++ localPart p else []
  | _ => "0+untagged.".toList ++ localPart p

/-- `render`, lines 579-612, with the style "pep440" -/
def render (p : Pieces) : Info :=
  match p.error with
  | some e => if e ≠ [] then ⟨"unknown".toList, some p.long, none, some e, none⟩ else ⟨renderPep440 p, some p.long, some p.dirty, none, p.date⟩
  | none => ⟨renderPep440 p, some p.long, some p.dirty, none, p.date⟩

/-- `versions_from_parentdir`, lines 115-136: `root` is the list of the names of the directories, innermost first; above `/` is `/`, whose name
is empty -/
def fromParents (pre : Txt) (root : List Txt) : Except Fail Info :=
  (([root, root.tail, root.tail.tail].map fun d => d.headD []).findSome? (dropStart pre)).elim (.error .notThis) fun v =>
    .ok ⟨v, none, some false, none, none⟩

/-- Where the package is: what `git archive` wrote, the names on the path of `_version.py` (innermost first; `none` if there is no `__file__`), and
what git prints in the directory two levels up -/
structure World where
  keywords : Keywords
  file : Option (List Txt)
  git : Cmd → Option Txt

/-- Going on with the next method after `NotThisMethod` -/
def orElse (a : Except Fail Info) (b : Except Fail Info) : Except Fail Info :=
  match a with
  | .error .notThis => b
  | r => r

/-- `get_versions`, lines 615-658 -/
def getVersions (W : World) : Except Fail Info :=
  orElse (fromKeywords W.keywords ['v']) <|
    match W.file with
    | none => .ok ⟨"0+unknown".toList, none, none, some "unable to find root of source tree".toList, none⟩
    | some path =>
      orElse ((gitPieces ['v'] W.git).map render) <|
      orElse (fromParents "ruleskit-".toList path.tail.tail) <|
      .ok ⟨"0+unknown".toList, none, none, some "unable to compute version".toList, none⟩

end Version

end Verif
