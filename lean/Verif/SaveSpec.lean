import Verif.Save

/-!
# What saving and loading a ruleset should do
-/

namespace Verif

namespace Save

open Thresholds (Attr)

/-- A value which is read back: a finite number, NaN, or `None` unless `read_csv` takes it for a missing value -/
def Readable (W : Texts) (v : Attr) : Prop :=
  (∃ x, v = .num (.fin x)) ∨ v = .num .nan ∨ v = .none ∧ "None" ∉ W.missing

/-- A class name which is read back -/
def ReadableClass (W : Texts) (t : String) : Prop :=
  t ∉ W.missing ∧ W.csvNumber t = none ∧ literal W t = .error .valueError

/-- A prediction which is a label -/
def predOf : Option Label → Pred
  | none => .none
  | some l => .label l

/-- The label of a prediction as an attribute -/
def predAttr : Option Label → Attr
  | none => .none
  | some l => Rule.ofLabel l

/-- A condition made by the constructor which sorts, as it does by default -/
def Made (by_ : String) (c : Cond) : Prop := ∃ i lo hi n, Cond.init by_ i lo hi n false true = .ok c

/-- What a rule must be like to be read back: its condition was made by the constructor and has finite bounds, its prediction and
its figures can be read back. -/
structure Loadable (W : Texts) (R : RsEnv) (by_ : String) (m : Member) : Prop where
  made : Made by_ m.rule.cond
  finite : ∀ l, m.rule.cond.bmins = some l ∨ m.rule.cond.bmaxs = some l → ∀ x ∈ l, ∃ q, x = Num.fin q
  prediction : ∀ o, m.rule.getPrediction (R.ofKind m.kind) = .ok o →
    Readable W (predAttr o) ∨ ∃ t, o = some (.text t) ∧ ReadableClass W t
  figures : ∀ a ∈ ["coverage", "criterion"], ∀ v, m.rule.getattr (R.ofKind m.kind) a = .ok v → Readable W v
  more : m.kind = .regression → ∀ a ∈ ["zscore", "std"], ∀ v, m.rule.getattr (R.ofKind m.kind) a = .ok v → Readable W v

/-- What is the same for a rule and the rule which is loaded -/
structure SameSaved (R : RsEnv) (m m' : Member) : Prop where
  kind : m'.kind = m.kind
  cond : m'.rule.cond = m.rule.cond
  prediction : m'.rule.getattr (R.ofKind m.kind) "prediction" = m.rule.getattr (R.ofKind m.kind) "prediction"
  coverage : m'.rule.getattr (R.ofKind m.kind) "coverage" = m.rule.getattr (R.ofKind m.kind) "coverage"
  criterion : m'.rule.getattr (R.ofKind m.kind) "criterion" = m.rule.getattr (R.ofKind m.kind) "criterion"
  zscore : m.kind = .regression → m'.rule.getattr (R.ofKind m.kind) "zscore" = m.rule.getattr (R.ofKind m.kind) "zscore"
  std : m.kind = .regression → m'.rule.getattr (R.ofKind m.kind) "std" = m.rule.getattr (R.ofKind m.kind) "std"
  /-- the loaded rule is fitted, so that another `fit` keeps it, exactly when there is a prediction -/
  fitted : m'.rule.fitted = true ↔ m.rule.getattr (R.ofKind m.kind) "prediction" ≠ .ok .none

/-- A size which can be saved: none, or an integer -/
def IsSize (a : Attr) : Prop := a = .none ∨ a = .num .nan ∨ ∃ i : Int, a = .num (.fin i)

/-- The size which is read -/
def sizeRead : Attr → Attr
  | .none => .num .nan
  | a => a

end Save

end Verif
