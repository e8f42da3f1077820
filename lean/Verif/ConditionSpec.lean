import Verif.Condition

/-!
# Specifications for conditions

What the properties of conditions say, independently of how the model computes.
-/

namespace Verif.Spec

/-- What a condition says about one feature: its name, its column, the bounds. -/
structure Feature where
  name : String
  index : Int
  lo : Num
  hi : Num
  deriving DecidableEq, Repr

/-- `lo ≤ q`, for a bound which can be infinite or missing -/
def AtLeast : Num → Rat → Prop
  | .ninf, _ => True
  | .fin a, q => a ≤ q
  | _, _ => False

/-- `q ≤ hi`, for a bound which can be infinite or missing -/
def AtMost : Num → Rat → Prop
  | .inf, _ => True
  | .fin b, q => q ≤ b
  | _, _ => False

/-- `x` is a finite number between `lo` and `hi`, both included. -/
def Within (lo hi x : Num) : Prop := ∃ q, x = .fin q ∧ AtLeast lo q ∧ AtMost hi q

/-- The lower bound is above the upper bound. -/
def Inverted (f : Feature) : Prop := f.hi.lt f.lo = true

/-- The value of a row with `ncols` columns in the column `j`, counted from the end when negative. -/
def cell (ncols : Nat) (row : List Num) (j : Int) : Num :=
  (row[(if 0 ≤ j then j else j + ncols).toNat]?).getD .nan

/-- `j` is a column of an array with `ncols` columns (negative ones counted from the end). -/
def InRange (ncols : Nat) (j : Int) : Prop := -(ncols : Int) ≤ j ∧ j < ncols

/-- The row is in the hyper-rectangle. -/
def InBox (fs : List Feature) (ncols : Nat) (row : List Num) : Prop :=
  ∀ f ∈ fs, Within f.lo f.hi (cell ncols row f.index)

/-- The value of a row in the column named `n`. -/
def cellNamed (columns : List String) (row : List Num) (n : String) : Num :=
  (row[columns.idxOf n]?).getD .nan

/-- The row of a DataFrame is in the hyper-rectangle. -/
def InBoxNamed (fs : List Feature) (columns : List String) (row : List Num) : Prop :=
  ∀ f ∈ fs, Within f.lo f.hi (cellNamed columns row f.name)

/-- A decision as an entry of an activation vector. -/
noncomputable def flag (p : Prop) : Nat := open Classical in if p then 1 else 0

/-- The two conditions pair names and columns differently. -/
def Disagree (as bs : List Feature) : Prop :=
  ∃ f ∈ as, ∃ g ∈ bs, (f.name = g.name ∧ f.index ≠ g.index) ∨ (f.name ≠ g.name ∧ f.index = g.index)

/-- The condition shows exactly the features `fs`, in this order, in its four public lists. -/
def Shows (c : Cond) (fs : List Feature) : Prop :=
  c.names = some (fs.map (·.name)) ∧ c.indexes = some (fs.map (·.index)) ∧
    c.bmins = some (fs.map (·.lo)) ∧ c.bmaxs = some (fs.map (·.hi))

/-- The conditions a user can obtain: by the constructor, by `&` (the class attribute
`SORT_ACCORDING_TO` being "index" or "name" at this moment), by `sort` (for any value of it), by assignments (successful or not) to the attributes of a condition which talks about at least one
feature and is not impossible. -/
inductive Reach : Cond → Prop
  | init {by_ i lo hi n s c} : Cond.init by_ i lo hi n false s = .ok c → Reach c
  | and {by_ a b c} : by_ = "index" ∨ by_ = "name" → Reach a → Reach b → Cond.and by_ a b = .ok c → Reach c
  | sort {by_ c c'} : Reach c → Cond.sort by_ c = .ok c' → Reach c'
  | setIndexes {c} (a) : Reach c → 0 < c.length → Reach (Cond.setIndexes a c).2
  | setNames {c} (a) : Reach c → 0 < c.length → Reach (Cond.setNames a c).2
  | setBmins {c} (a) : Reach c → 0 < c.length → c.impossible = false → Reach (Cond.setBmins a c).2
  | setBmaxs {c} (a) : Reach c → 0 < c.length → c.impossible = false → Reach (Cond.setBmaxs a c).2
  | normalize {c} : Reach c → Reach (Cond.normalizeIndexes c).2

/-- An assignment to one of the four attributes of a condition. -/
inductive SetOp where
  | indexes (a : Cond.Arg Int)
  | names (a : Cond.Arg String)
  | bmins (a : Cond.Arg Num)
  | bmaxs (a : Cond.Arg Num)

/-- Do the assignment. -/
def SetOp.run : SetOp → Py Cond Unit
  | .indexes a => Cond.setIndexes a
  | .names a => Cond.setNames a
  | .bmins a => Cond.setBmins a
  | .bmaxs a => Cond.setBmaxs a

/-- The condition after a sequence of assignments, the rejected ones (which raise an exception) included. -/
def afterSets (c : Cond) (ops : List SetOp) : Cond := ops.foldl (fun c o => (o.run c).2) c

/-- What a condition requires of the features, by name: the same triples (name, lower bound, upper bound). -/
def SameRequirements (fs gs : List Feature) : Prop :=
  ∀ n lo hi, (∃ f ∈ fs, f.name = n ∧ f.lo = lo ∧ f.hi = hi) ↔ (∃ g ∈ gs, g.name = n ∧ g.lo = lo ∧ g.hi = hi)

/-- None of the bounds is NaN. -/
def NoNaN (fs : List Feature) : Prop := ∀ f ∈ fs, f.lo ≠ .nan ∧ f.hi ≠ .nan

end Verif.Spec
