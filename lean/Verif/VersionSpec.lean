import Verif.Version

/-!
# Vocabulary for C81
-/

namespace Verif.Spec

open Verif Version

/-- The keywords of a file which `git archive` did not write, `/repo/ruleskit/_version.py` lines 28-30 -/
def unexpanded : Keywords := ⟨some "$Format:%d$".toList, some "$Format:%H$".toList, some "$Format:%ci$".toList⟩

/-- A number which is not negative, as git prints it -/
def Decimal (d : Txt) : Prop := d ≠ [] ∧ (∀ c ∈ d, c ∈ "0123456789".toList) ∧ (d.head? = some '0' → d = ['0'])

/-- The beginning of a hash -/
def HashText (h : Txt) : Prop := h ≠ [] ∧ ∀ c ∈ h, c ∈ "0123456789abcdef".toList

/-- A character which is not white space -/
def Visible (c : Char) : Prop := c ∉ [' ', '\t', '\n', '\r', '\x0b', '\x0c']

/-- A name of a tag or branch: something without white space -/
def GitName (t : Txt) : Prop := t ≠ [] ∧ ∀ c ∈ t, Visible c

/-- A checkout: its closest tag is `v` and then `tag`, `number` of commits ago; the commit has the hash `hash`; there are changes or not. -/
structure Checkout where
  tag : Txt
  number : Txt
  hash : Txt
  dirty : Bool

/-- What the checkout may consist of -/
structure Checkout.Sound (c : Checkout) : Prop where
  tag : GitName c.tag
  number : Decimal c.number
  hash : HashText c.hash

/-- What `git describe --tags --dirty --always --long --match v*` prints -/
def Checkout.describe (c : Checkout) : Txt :=
  'v' :: (c.tag ++ '-' :: (c.number ++ '-' :: 'g' :: (c.hash ++ ((if c.dirty then "-dirty".toList else []) ++ ['\n']))))

/-- The state of the tree exactly at the tag -/
def Checkout.AtTag (c : Checkout) : Prop := c.number = ['0'] ∧ c.dirty = false

/-- The version which belongs to it -/
structure Checkout.HasVersion (c : Checkout) (v : Txt) : Prop where
  clean : c.AtTag → v = c.tag
  later : ¬ c.AtTag → v = c.tag ++ (if '+' ∈ c.tag then '.' else '+') :: (c.number ++ '.' :: 'g' :: (c.hash ++
    if c.dirty then ".dirty".toList else []))

/-- The other commands of git work. -/
structure GitWorks (W : World) (head : Txt) : Prop where
  keywords : W.keywords = unexpanded
  file : W.file ≠ none
  dir : W.git .gitDir ≠ none
  branch : W.git .branch ≠ none
  contains : W.git .contains ≠ none
  head_eq : W.git .head = some (head ++ ['\n'])
  head_name : GitName head
  date : ∃ d, W.git .date = some d ∧ ∃ c ∈ d, Visible c

/-- The package is in this checkout. -/
def InCheckout (W : World) (head : Txt) (c : Checkout) : Prop := GitWorks W head ∧ c.Sound ∧ W.git .describe = some c.describe

/-- What `git archive` writes for these names: in parentheses, separated by commas -/
def refsText (names : List Txt) : Txt := ' ' :: '(' :: (List.intercalate [',', ' '] names ++ [')'])

/-- How a tag is written there -/
def tagText (t : Txt) : Txt := "tag: ".toList ++ t

/-- A name as it may appear there: no comma or parenthesis, not white at its ends -/
structure RefName (t : Txt) : Prop where
  nonempty : t ≠ []
  comma : ∀ c ∈ t, c ≠ ',' ∧ c ≠ '(' ∧ c ≠ ')'
  first : ∀ c, t.head? = some c → Visible c
  last : ∀ c, t.getLast? = some c → Visible c

/-- The text is `v` and then something which begins with a digit: `r`. -/
def VersionTag (t r : Txt) : Prop := t = 'v' :: r ∧ ∃ c ∈ r.head?, c ∈ "0123456789".toList

/-- A tag which the version of an archive may be taken from: one marked as a tag, or any name if none is marked -/
def Candidate (names : List Txt) (t : Txt) : Prop := tagText t ∈ names ∨ (∀ u, tagText u ∉ names) ∧ t ∈ names

/-- The package is in an archive of a commit with these names. -/
structure InArchive (W : World) (names : List Txt) (full : Txt) : Prop where
  refnames : W.keywords.refnames = some (refsText names)
  names_ne : names ≠ []
  sound : ∀ t ∈ names, RefName t
  full_eq : W.keywords.full = some full
  full_name : GitName full
  date : ∀ d, W.keywords.date = some d → d ≠ []

/-- There is neither an archive nor git; the path of the file `_version.py` is given, innermost first. -/
structure Unpacked (W : World) (path : List Txt) : Prop where
  keywords : W.keywords = unexpanded
  file : W.file = some path
  dir : W.git .gitDir = none

end Verif.Spec
