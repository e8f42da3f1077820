import Verif.Tree
import Verif.ConditionSpec

/-!
# Specifications for decision trees

What a decision tree is, and which samples fall in which leaf, independently of how the rules are extracted.
-/

namespace Verif.Spec

/-- A decision tree: a sample whose feature is at most the threshold goes to the left, the others to the right. -/
inductive DTree where
  | leaf (value : List Rat)
  | node (feature : Nat) (threshold : Rat) (value : List Rat) (left right : DTree)
  deriving DecidableEq

/-- A turn on the way down -/
structure Turn where
  feature : Nat
  threshold : Rat
  right : Bool
  deriving DecidableEq

namespace DTree

/-- The longest way down -/
def depth : DTree → Nat
  | leaf _ => 0
  | node _ _ _ l r => max l.depth r.depth + 1

/-- The number of leaves -/
def leafCount : DTree → Nat
  | leaf _ => 1
  | node _ _ _ l r => l.leafCount + r.leafCount

/-- The number of internal nodes -/
def innerCount : DTree → Nat
  | leaf _ => 0
  | node _ _ _ l r => l.innerCount + r.innerCount + 1

/-- The ways to the leaves, from left to right, with the values of the leaves -/
def leaves : DTree → List (List Turn × List Rat)
  | leaf v => [([], v)]
  | node f a _ l r => l.leaves.map (fun p => (⟨f, a, false⟩ :: p.1, p.2)) ++ r.leaves.map (fun p => (⟨f, a, true⟩ :: p.1, p.2))

/-- The ways to all nodes but the root, parents before children, left before right, each with the value of the parent -/
def turns : DTree → List (List Turn × List Rat)
  | leaf _ => []
  | node f a v l r =>
    ([⟨f, a, false⟩], v) :: l.turns.map (fun p => (⟨f, a, false⟩ :: p.1, p.2)) ++
      ([⟨f, a, true⟩], v) :: r.turns.map (fun p => (⟨f, a, true⟩ :: p.1, p.2))

/-- The leaf in which a sample falls: the way to it and its value; `x` gives the features of the sample. -/
def falls (x : Nat → Rat) : DTree → List Turn × List Rat
  | leaf v => ([], v)
  | node f a _ l r =>
    if x f ≤ a then (⟨f, a, false⟩ :: (falls x l).1, (falls x l).2) else (⟨f, a, true⟩ :: (falls x r).1, (falls x r).2)

end DTree

/-- The sample satisfies the comparison, equality with the threshold being accepted on both sides. -/
def Turn.Admits (t : Turn) (x : Nat → Num) : Prop :=
  ∃ q, x t.feature = .fin q ∧ if t.right then t.threshold ≤ q else q ≤ t.threshold

/-- Later turns do not go to the right for the same feature. -/
def Turn.Kept (t : Turn) (later : List Turn) : Prop := t.right = true ∨ ∀ u ∈ later, u.feature = t.feature → u.right = false

/-- All features of the sample are between `xmins` and `xmaxs`. -/
def InsideBounds (xmins xmaxs : List Num) (x : Nat → Num) : Prop :=
  ∀ f lo hi, xmins[f]? = some lo → xmaxs[f]? = some hi → Within lo hi (x f)

/-- The threshold is between the bounds of its feature. -/
def Turn.Inside (t : Turn) (xmins xmaxs : List Num) : Prop :=
  ∀ lo hi, xmins[t.feature]? = some lo → xmaxs[t.feature]? = some hi → AtLeast lo t.threshold ∧ AtMost hi t.threshold

/-- The features of a row of an array -/
def rowOf (ncols : Nat) (row : List Num) : Nat → Num := fun f => cell ncols row f

/-- The arrays of sklearn hold this tree below the node `i`. -/
inductive Stores (I : Tree.Input) : Nat → DTree → Prop
  | leaf {i v} : I.feature[i]? = some (-2) → I.value[i]? = some v → Stores I i (.leaf v)
  | node {i a v} {f j k : Nat} {l r} : I.feature[i]? = some (f : Int) → I.threshold[i]? = some (.fin a) → I.value[i]? = some v →
      I.left[i]? = some (j : Int) → I.right[i]? = some (k : Int) → Stores I j l → Stores I k r → Stores I i (.node f a v l r)

/-- The value of a node gives a prediction: there is a number for regression, names for all classes if classes have names. -/
def ValueFits (I : Tree.Input) (v : List Rat) : Prop :=
  match I.kind with
  | .regression => v ≠ []
  | .classification => ∀ names, I.classes = some names → v.length ≤ names.length

/-- The tree is one on `n` features whose values give predictions. -/
def TreeFits (I : Tree.Input) (n : Nat) : DTree → Prop
  | .leaf v => ValueFits I v
  | .node f _ v l r => f < n ∧ ValueFits I v ∧ TreeFits I n l ∧ TreeFits I n r

/-- The prediction of a rule made from the value of a node: the number, or the classes with their numbers. -/
def predictionOf (I : Tree.Input) (v : List Rat) : Pred :=
  match I.kind with
  | .regression => .label (.num (.fin (v.headD 0)))
  | .classification =>
    match I.classes with
    | none => .probs (((List.range v.length).map fun i : Nat => Label.num (.fin i)).zip v)
    | some names => .probs (names.zip v)

/-- The name of a feature: the one given, or `X_` and its number -/
def NameOf (I : Tree.Input) (k : Nat) (name : String) : Prop :=
  (∀ l, I.names = some l → l[k]? = some name) ∧ (I.names = none → name = "X_" ++ Nat.repr k)

/-- What is asked of the arguments: names, minima and maxima of the `n` features, different names, no NaN. -/
structure GoodInput (I : Tree.Input) (n : Nat) (t : DTree) : Prop where
  stores : Stores I 0 t
  fits : TreeFits I n t
  deep : t.depth < I.limit
  sortBy : I.sortBy = "index" ∨ I.sortBy = "name"
  mins : I.xmins.length = n
  maxs : I.xmaxs.length = n
  minsNum : ∀ x ∈ I.xmins, x ≠ .nan
  maxsNum : ∀ x ∈ I.xmaxs, x ≠ .nan
  names : (∃ l, I.names = some l ∧ l.length = n ∧ l.Nodup) ∨ (I.names = none ∧ I.nFeatures = some n)

/-- The rules to be extracted: the ways to them and the values -/
def wanted (I : Tree.Input) (t : DTree) : List (List Turn × List Rat) := if I.getLeaf then t.leaves else t.turns

end Verif.Spec
