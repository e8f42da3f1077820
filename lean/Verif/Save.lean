import Verif.RuleSetOps
import Verif.PyText

/-!
# Rulesets: saving and loading

Model of `to_df`, `save`, `load`, `rule_to_series` and `series_to_rule` of `/repo/ruleskit/ruleset.py`, lines 889-1047, through a
csv file (`df.to_csv(path)`, `pd.read_csv(path)`).

Simplifications.
* Numbers which are not sizes are written as floats are (in Python the integer 1 is written `1`, the float `1.0`); `True` and
  `False` are numbers.
* The quotes of csv files are not modelled: a cell which is written is the text which is read.
* `_name` of rules is not kept: it only names the lines of the table, as `R_0(1)+`.
* A class name which `literal_eval` reads as a list, a dictionary and so on raises `TypeError` (in Python, reading the
  prediction does).
-/

namespace Verif

namespace Save

open Thresholds (Attr)

/-- What saving and loading depend on besides rulesets -/
structure Texts where
  printable : Char → Bool
  floats : PyText.Floats
  /-- `ast.literal_eval` of a text which is neither `None` nor a finite number; `none` is `None`.  Names such as `inf` are refused
  with `ValueError`. -/
  literal : String → Except Err (Option Label)
  literal_inf : literal "inf" = .error .valueError
  literal_ninf : literal "-inf" = .error .valueError
  /-- the texts which `read_csv` takes for a missing value; among them the empty text and `nan`, since pandas 2 also `None` -/
  missing : List String
  missing_empty : "" ∈ missing
  missing_nan : "nan" ∈ missing
  /-- no text of a list, of an integer or of a finite float is among them -/
  missing_int : ∀ i, String.ofList (PyText.int i) ∉ missing
  missing_list : ∀ t, String.ofList ('[' :: t) ∉ missing
  missing_num : ∀ x, String.ofList (floats.write x) ∉ missing
  /-- the number which `read_csv` reads in a cell -/
  csvNumber : String → Option Num
  /-- The ordinary converter of `read_csv` does not always give the float which was written. -/
  csvRound : Rat → Rat
  csvNumber_num : ∀ x, csvNumber (String.ofList (floats.write x)) = some (.fin (csvRound x))
  csvNumber_list : ∀ t, csvNumber (String.ofList ('[' :: t)) = none
  csvNumber_none : csvNumber "None" = none

/-- `str` of a number -/
def strNum (W : Texts) (x : Num) : String := String.ofList (PyText.num W.floats x)

/-- `str` of an attribute -/
def strAttr (W : Texts) : Attr → String
  | .num x => strNum W x
  | .str s => s
  | .none => "None"
  | .callable => "<function>"
  | .other => "<object>"

/-- `str` of lists of names, indexes, bounds -/
def strNames (W : Texts) (l : Option (List String)) : String := String.ofList (PyText.option (PyText.text W.printable) l)
def strIndexes (l : Option (List Int)) : String := String.ofList (PyText.option PyText.int l)
def strBounds (W : Texts) (l : Option (List Num)) : String := String.ofList (PyText.option (PyText.num W.floats) l)

/-- The attributes of rules which are written besides the condition and the prediction, `/repo/ruleskit/rule.py` lines 575, 724 -/
def ruleIndex : Kind → List String
  | .regression => ["prediction", "coverage", "zscore", "criterion", "std"]
  | .classification => ["prediction", "coverage", "criterion"]

/-- A line of the table: features_names, features_indexes, bmins, bmaxs and the others -/
structure Line where
  names : String
  indexes : String
  bmins : String
  bmaxs : String
  others : List String
  deriving DecidableEq

/-- `rule_to_series`, lines 991-1002: `str(getattr(rule, ind)) for ind in index` -/
def ruleToLine (W : Texts) (R : RsEnv) (k : Kind) (m : Member) : Except Err Line := do
  let l ← (ruleIndex k).mapM fun a => m.rule.getattr (R.ofKind m.kind) a
  .ok { names := strNames W m.rule.cond.names, indexes := strIndexes m.rule.cond.indexes, bmins := strBounds W m.rule.cond.bmins,
        bmaxs := strBounds W m.rule.cond.bmaxs, others := l.map (strAttr W) }

/-- A cell with a figure of the ruleset: missing values are written as the empty text. -/
def cellOf (W : Texts) : Attr → String
  | .none => ""
  | .num .nan => ""
  | a => strAttr W a

/-- The same for sizes, which are integers -/
def cellOfSize (W : Texts) : Attr → String
  | .num (.fin q) => if q.den = 1 then String.ofList (PyText.int q.num) else strNum W (.fin q)
  | a => cellOf W a

/-- The table: the lines of the rules, and the cells of the four lines named "ruleset coverage", "ruleset criterion", "ruleset train
set size", "ruleset test set size" in the column of features_names; the other cells of these lines are empty. -/
structure Table where
  kind : Kind
  lines : List Line
  coverage : String
  criterion : String
  trainSize : String
  testSize : String
  deriving DecidableEq

/-- `to_df`, `/repo/ruleskit/ruleset.py` lines 931-979, and `save`; `none` is the empty table.  Lines 970-974 write the size of the
train set as size of the test set.  Without type of rules, `None.index` raises `AttributeError`. -/
def toTable (W : Texts) (R : RsEnv) (s : RuleSet) : Except Err (Option Table) :=
  if s.rules.length = 0 then .ok none
  else
    match s.ruleType with
    | none => .error .attributeError
    | some k => do
      let lines ← s.rules.mapM (ruleToLine W R k)
      .ok (some { kind := k, lines, coverage := cellOf W s.rulesetCoverage, criterion := cellOf W s.criterion,
                  trainSize := cellOfSize W s.trainSize, testSize := cellOfSize W s.trainSize })

/-! ## Reading -/

/-- A value read by `read_csv` -/
inductive Value where
  | missing
  | num (x : Num)
  | text (s : String)

/-- A cell in a column of numbers -/
def valueInNumbers (W : Texts) (t : String) : Value :=
  if t ∈ W.missing then .missing
  else match W.csvNumber t with
    | some x => .num x
    | none => .text t

/-- A cell in another column -/
def valueInTexts (W : Texts) (t : String) : Value := if t ∈ W.missing then .missing else .text t

/-- A column is a column of numbers when all cells which are not missing are numbers. -/
def areNumbers (W : Texts) (column : List String) : Bool := column.all fun t => decide (t ∈ W.missing) || (W.csvNumber t).isSome

/-- A cell of a column -/
def readValue (W : Texts) (column : List String) (t : String) : Value :=
  if areNumbers W column then valueInNumbers W t else valueInTexts W t

/-- `str(srule[rule_ind])` -/
def strValue (W : Texts) : Value → String
  | .missing => "nan"
  | .num x => strNum W x
  | .text s => s

/-- A figure of the ruleset: texts stay texts. -/
def attrOf : Value → Attr
  | .missing => .num .nan
  | .num x => .num x
  | .text s => .str s

/-- `ast.literal_eval` of the text of a list.  Simplification: texts which are not those of such lists raise `ValueError`. -/
def literalList {α : Type} (read : List Char → Option (α × List Char)) (t : String) : Except Err (Option (List α)) :=
  match PyText.readOption read t.toList with
  | some (o, []) => .ok o
  | _ => .error .valueError

/-- The same for bounds: the names `nan` and `inf` raise `ValueError`. -/
def literalBounds (W : Texts) (t : String) : Except Err (Option (List Num)) := do
  match ← literalList (PyText.readNum W.floats) t with
  | none => .ok none
  | some l => if l.all (fun x => match x with | .fin _ => true | _ => false) then .ok (some l) else .error .valueError

/-- `ast.literal_eval` of the text of an attribute -/
def literal (W : Texts) (t : String) : Except Err (Option Label) :=
  if t = "None" then .ok none
  else match W.floats.read t.toList with
    | some (x, []) => .ok (some (.num (.fin x)))
    | _ => W.literal t

/-- An attribute which was read -/
def ofLiteral : Option Label → Attr
  | none => .none
  | some l => Rule.ofLabel l

/-- Lines 1024-1040 for an attribute other than the prediction -/
def readAttr (W : Texts) (t : String) : Except Err Attr :=
  if t = "nan" then .ok (.num .nan) else (literal W t).map ofLiteral

/-- The same lines for the prediction: a text which is not a literal is a class. -/
def readPrediction (W : Texts) (t : String) : Except Err Pred :=
  if t = "nan" then .ok (.label (.num .nan))
  else
    match literal W t with
    | .ok none => .ok .none
    | .ok (some l) => .ok (.label l)
    | .error .valueError => .ok (.label (.text t))
    | .error e => .error e

/-- `setattr(rule, "_" + name, value)` for one column after the other -/
def readOthers (W : Texts) : List (String × String) → Rule → Except Err Rule
  | [], r => .ok r
  | (a, t) :: rest, r =>
    if a = "prediction" then do
      let p ← readPrediction W t
      readOthers W rest { r with prediction := p }
    else do
      let v ← readAttr W t
      readOthers W rest
        (if a = "coverage" then { r with coverage := v }
         else if a = "zscore" then { r with zscore := v }
         else if a = "criterion" then { r with criterion := v }
         else if a = "std" then { r with std := v }
         else r)

/-- A new rule, without condition, `/repo/ruleskit/rule.py` lines 70-113 -/
def blankRule : Rule :=
  { cond := { indexes := none, bmins := none, bmaxs := none, names := none, impossible := false }, act := none, actCoverage := none,
    coverage := .none, good := true, badBecause := none, prediction := .none, std := .none, sign := .none, zscore := .none,
    criterion := .none, trainSize := .none, testSize := .none, fitted := false, evaluated := false, log := [] }

/-- `_fitted`, lines 1045-1046: true for a rule with a prediction -/
def hasPrediction : Pred → Bool
  | .none => false
  | _ => true

/-- `series_to_rule`, lines 1003-1047, from the texts of the values read -/
def lineToRule (W : Texts) (by_ : String) (k : Kind) (l : Line) : Except Err Member := do
  let names ← literalList PyText.readText l.names
  let indexes ← literalList PyText.readInt l.indexes
  let bmins ← literalBounds W l.bmins
  let bmaxs ← literalBounds W l.bmaxs
  let r ← readOthers W ((ruleIndex k).zip l.others) blankRule
  let c ← Cond.initTyped by_ indexes bmins bmaxs names
  .ok { kind := k, rule := { r with cond := c, fitted := hasPrediction r.prediction } }

/-- The text read in a cell of a column -/
def reread (W : Texts) (column : List String) (t : String) : String := strValue W (readValue W column t)

/-- The `j`-th column of the attributes: the cells of the rules and the four empty ones -/
def column (lines : List Line) (j : Nat) : List String := lines.map (fun l => l.others.getD j "") ++ ["", "", "", ""]

/-- A line as it is read -/
def rereadLine (W : Texts) (t : Table) (l : Line) : Line :=
  { names := reread W (t.lines.map (·.names) ++ [t.coverage, t.criterion, t.trainSize, t.testSize]) l.names
    indexes := reread W (t.lines.map (·.indexes) ++ ["", "", "", ""]) l.indexes
    bmins := reread W (t.lines.map (·.bmins) ++ ["", "", "", ""]) l.bmins
    bmaxs := reread W (t.lines.map (·.bmaxs) ++ ["", "", "", ""]) l.bmaxs
    others := l.others.zipIdx.map fun p => reread W (column t.lines p.2) p.1 }

/-- A figure of the ruleset as it is read -/
def figure (W : Texts) (t : Table) (cell : String) : Value :=
  readValue W (t.lines.map (·.names) ++ [t.coverage, t.criterion, t.trainSize, t.testSize]) cell

/-- `if isinstance(size, str): size = int(size)`, lines 903-904, 907-908.  Simplification: `int` only reads what `str` of an integer
writes, and raises `ValueError` otherwise. -/
def sizeOf : Value → Except Err Attr
  | .missing => .ok (.num .nan)
  | .num x => .ok (.num x)
  | .text s =>
    match PyText.readInt s.toList with
    | some (i, []) => .ok (.num (.fin i))
    | _ => .error .valueError

/-- Lines 914-923, for rules which have no sizes -/
def withSizes (train test : Attr) (m : Member) : Member := { m with rule := { m.rule with trainSize := train, testSize := test } }

/-- `list(set(traverse([rule.features_names for rule in self])))`, line 929.  Rules which were read have names. -/
def collectNames (R : RsEnv) : Py RuleSet Unit :=
  Py.modify fun s => { s with names := R.strings (s.rules.flatMap fun m => m.rule.cond.names.getD []) }

/-- Lines 910-929 -/
def setLoaded (R : RsEnv) (rules : List Member) : Py RuleSet Unit := do
  Py.modify fun s => { s with rules := rules.map (withSizes s.trainSize s.testSize),
                              ruleType := match rules with | [] => s.ruleType | m :: _ => some m.kind }
  RuleSet.computeSelf R none
  RuleSet.stackIf (RuleSet.computeStacked R none)
  collectNames R

/-- `load`, `/repo/ruleskit/ruleset.py` lines 889-929, of a table which was saved -/
def load (W : Texts) (R : RsEnv) (by_ : String) (t : Option Table) : Py RuleSet Unit :=
  match t with
  | none => setLoaded R []
  | some t => do
    Py.modify fun s => { s with coverage := attrOf (figure W t t.coverage), criterion := attrOf (figure W t t.criterion) }
    let train ← Py.ofExcept (sizeOf (figure W t t.trainSize))
    Py.modify fun s => { s with trainSize := train }
    let test ← Py.ofExcept (sizeOf (figure W t t.testSize))
    Py.modify fun s => { s with testSize := test }
    let rules ← Py.ofExcept (t.lines.mapM fun l => lineToRule W by_ t.kind (rereadLine W t l))
    setLoaded R rules

end Save

end Verif
