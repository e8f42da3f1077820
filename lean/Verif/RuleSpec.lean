import Verif.Rule
import Verif.Spec

/-!
# Vocabulary for the properties of thresholds and rules
-/

namespace Verif.Spec

open Verif Thresholds

/-- The number a limit stands for: itself, or the value of the attribute it names. -/
def LimitIs (getattr : String → Except Err Attr) (l : Lim) (m : Num) : Prop :=
  l = .num m ∨ ∃ s, l = .str s ∧ getattr s = .ok (.num m)

/-- `x` is the value of the function named `f` at the attribute `v`; square root, exponential, logarithm and reading a
number in a text are those of Python. -/
def ArgIs (M : Math) (f : String) (v : Attr) (x : Num) : Prop :=
  (f = "abs" ∧ ∃ y, v = .num y ∧ x = y.abs) ∨
  (f = "sqrt" ∧ ∃ y, v = .num y ∧ M.sqrt y = .ok x) ∨
  (f = "exp" ∧ ∃ y, v = .num y ∧ M.exp y = .ok x) ∨
  (f = "log" ∧ ∃ y, v = .num y ∧ M.log y = .ok x) ∨
  (f = "int" ∧ ((∃ q, v = .num (.fin q) ∧ x = .fin (Num.trunc q)) ∨ ∃ s, v = .str s ∧ M.intOfStr s = .ok x))

/-- The number to compare with the limits `th` when the attribute has the value `v`: itself, or the result of the function
named under "arg". -/
def Measured (M : Math) (th : Dict Lim) (v : Attr) (x : Num) : Prop :=
  (Dict.get? th "arg" = none ∧ v = .num x) ∨
    ∃ f, Dict.get? th "arg" = some (.str f) ∧ ArgIs M f v x

/-- The text to compare with the limits `th` when the attribute has the value `v`: itself, or the text Python writes for it. -/
def MeasuredText (M : Math) (th : Dict Lim) (v : Attr) (s : String) : Prop :=
  (Dict.get? th "arg" = none ∧ v = .str s) ∨ (Dict.get? th "arg" = some (.str "str") ∧ s = M.str v)

/-- `x` satisfies the limit called `name` with value `m`. -/
def Satisfies (name : String) (m x : Num) : Prop :=
  (name = "min" → m.le x = true) ∧ (name = "max" → x.le m = true) ∧ (name = "equal" → x.beq m = true) ∧
    (name = "different" → x.beq m = false)

/-- The targets of the activated points. -/
def activated {α} (u : List Bool) (y : List α) : List α := ((u.zip y).filter (·.1)).map (·.2)

/-- The targets which are not missing. -/
def present (y : List (Option Rat)) : List Rat := y.filterMap id

/-- Arithmetic mean -/
def meanOf (l : List Rat) : Rat := l.sum / l.length

/-- Sum of the squared distances to the mean, divided by the number of values minus one. -/
def varianceOf (l : List Rat) : Rat := (l.map fun x => (x - meanOf l) ^ 2).sum / (l.length - 1)

/-- Mean of the squared distances to the mean -/
def populationVariance (l : List Rat) : Rat := (l.map fun x => (x - meanOf l) ^ 2).sum / l.length

/-- A square root function, as far as zero and positivity are concerned. -/
structure SquareRoot (s : Num → Num) : Prop where
  zero : s (.fin 0) = .fin 0
  pos : ∀ q : Rat, 0 < q → ∃ p : Rat, 0 < p ∧ s (.fin q) = .fin p
  nan : s .nan = .nan

/-- A class is a number or a text. -/
def IsClass (l : Label) : Prop := (∃ q, l = .num (.fin q)) ∨ ∃ s, l = .text s

/-- Order of classes: numbers by value, texts alphabetically. -/
inductive ClassLt : Label → Label → Prop
  | num {p q : Rat} : p < q → ClassLt (.num (.fin p)) (.num (.fin q))
  | text {s t : String} : s < t → ClassLt (.text s) (.text t)

/-- All classes are numbers, or all are texts. -/
def SameType (y : List Label) : Prop := (∀ l ∈ y, ∃ q, l = .num (.fin q)) ∨ ∀ l ∈ y, ∃ s, l = .text s

/-- Frequency of `c` in `l` -/
def frequency (c : Label) (l : List Label) : Rat := (l.count c : Rat) / l.length

/-- Prediction and target of the points which have both. -/
def both (pred y : List (Option Rat)) : List (Rat × Rat) :=
  (pred.zip y).filterMap fun x => match x with
    | (some p, some t) => some (p, t)
    | _ => none

end Verif.Spec
