import Verif.StackedFit
import Verif.ConditionProps
import Verif.RuleHeap
import Verif.RuleOps
import Verif.Tree

/-!
# The unit tests of the code, read against the model

Every `example` of this file is one case of a parametrised test of `/repo/tests/unit`, with the inputs and the expected values
of the test, decided by computation in the model.  These are tests of the transcription, not proofs of properties: they show
that on the inputs chosen by the authors of the code the model gives what they expect of the code.  The z-scores are compared
with six decimals, as in the tests, the other numbers exactly, or with six decimals where the expected value is itself written
with some decimals.
-/

namespace Verif.RepoTests

open Verif

/-- The largest integer whose square is at most `n`, by Newton's method -/
def intSqrt (n : Nat) : Nat → Nat → Nat
  | 0, x => x
  | fuel + 1, x => if x = 0 then 0 else
      let z := (x + n / x) / 2
      if z < x then intSqrt n fuel z else x

/-- A square root with ten decimals -/
def tenDecimals : Num → Num
  | .fin x => if x < 0 then .nan else .fin ((intSqrt (x.num.toNat * 10 ^ 20 / x.den) 400 (x.num.toNat * 10 ^ 20 / x.den + 1) : Rat) / 10 ^ 10)
  | x => x

/-- `str` of the bounds of the tests -/
def boundText : Num → String
  | .fin x => if x.den = 1 then toString x.num else "?"
  | _ => "?"

/-- `str(condition)` for the conditions of the tests -/
def condText (c : Cond) : String :=
  match c.names, c.bmins, c.bmaxs with
  | some n, some lo, some hi =>
    String.intercalate " AND " ((n.zip (lo.zip hi)).map fun p => p.1 ++ " in [" ++ boundText p.2.1 ++ ", " ++ boundText p.2.2 ++ "]")
  | _, _, _ => "?"

/-- How numpy writes the probabilities of the tests -/
def probText (x : Rat) : String :=
  if x = 1 then "1.0" else if x = 2 / 3 then "0.6666666666666666" else if x = 1 / 2 then "0.5"
  else if x = 1 / 3 then "0.3333333333333333" else if x = 1 / 4 then "0.25" else "0.2"

/-- The environment of a rule, with the thresholds `limits` -/
def env (kind : Kind) (limits : Option Thresholds.Limits) : Env where
  kind := kind
  thresholds := limits
  math := ⟨fun _ => .error .valueError, .ok, .ok, fun _ => "", fun _ => .error .valueError⟩
  sqrt := tenDecimals
  floatStr := probText
  store := fun _ => .ok ()
  names := ["coverage", "prediction", "criterion"]
  extra := fun _ _ => .error .attributeError

/-- The environment of a ruleset -/
def rsEnv (kind : Kind) (limits : Option Thresholds.Limits) (stackedFit : Bool) : RsEnv where
  env := env kind limits
  condStr := condText
  storedRaw := fun _ => false
  hasher := ConditionProps.sumHasher
  strings := List.dedup
  strings_perm := fun _ => .refl _
  ints := List.dedup
  ints_perm := fun _ => .refl _
  order := fun l => l
  order_perm := fun _ => .refl _
  union := fun _ _ => .ok ()
  multi := fun _ => .ok ()
  clear := fun _ => .ok ()
  stackedFit := stackedFit
  checkDuplicated := false
  allIndexes := []
  strNames := fun _ => ""
  strIndexes := fun _ => ""
  strBounds := fun _ => ""
  strPred := fun _ => ""

/-- The condition on these indexes, without names: `HyperrectangleCondition(indexes, bmins=…, bmaxs=…)` -/
structure Box where
  indexes : List Int
  bmins : List Rat
  bmaxs : List Rat

/-- The condition -/
def Box.cond (b : Box) : Except Err Cond :=
  Cond.init "index" (some (b.indexes.map .int)) (some (b.bmins.map fun x => .float (.fin x))) (some (b.bmaxs.map fun x => .float (.fin x)))
    none false true

/-- A rule on this condition, without activation -/
def Box.member (k : Kind) (b : Box) : Except Err Member := do
  let c ← b.cond
  match Rule.make (env k none) c none with
  | (.ok _, r) => .ok ⟨k, r⟩
  | (.error e, _) => .error e

/-- A Series of weights -/
def given (l : List (String × Num)) : Vote.Weights := fun s => (l.find? fun p => p.1 == s).map (·.2)

/-- Equal with six decimals -/
def near (a b : Rat) : Bool := decide ((a - b) * 1000000 ≤ 1) && decide ((b - a) * 1000000 ≤ 1)

/-- The same number with six decimals, or both NaN -/
def nearNum : Num → Num → Bool
  | .fin a, .fin b => near a b
  | a, b => a == b

/-- The same class, the same number with six decimals, or both NaN -/
def nearLabel : Label → Label → Bool
  | .num a, .num b => nearNum a b
  | a, b => a == b

/-- The value of an attribute is this number -/
def isNum (a : Thresholds.Attr) (x : Num) : Bool :=
  match a with
  | .num z => nearNum z x
  | _ => false

/-- The entry of a dictionary -/
def entry {α} (l : List (String × α)) (k : String) : Option α := (l.find? fun p => p.1 == k).map (·.2)

/-- `criterion_method` of the tests -/
def methodOf : Kind → String
  | .regression => "mse"
  | _ => "success_rate"

/-- `fit` -/
def fit (R : RsEnv) (y : List Label) (xs : Option Xs) : Py RuleSet (List Member) :=
  if R.stackedFit then RuleSet.fitStacked R y xs {} else RuleSet.fit R y xs false {}

/-- `eval` -/
def eval (R : RsEnv) (y : List Label) (xs : Option Xs) (w : Option Vote.WeightsArg) (k : Kind) : Py RuleSet (List Member) :=
  if R.stackedFit then RuleSet.evalStacked R y xs false w { criterionMethod := some (methodOf k) }
  else RuleSet.eval R y xs false w false { criterionMethod := some (methodOf k) }

/-- What the tests compare of one rule.  The figures are given by the text of the condition. -/
def ruleHolds (R : RsEnv) (k : Kind) (covs : List (String × Rat)) (preds : List (String × Label)) (crits : List (String × Num))
    (zscores : List (String × Rat)) (r : Rule) : Bool :=
  let key := condText r.cond
  (match entry covs key, r.getCoverage with
    | some x, .ok a => isNum a (.fin x)
    | _, _ => false) &&
  (match entry preds key, r.getPrediction (R.ofKind k) with
    | some l, .ok (some p) => nearLabel p l
    | _, _ => false) &&
  (match entry crits key with
    | some x => isNum r.criterion x
    | none => false) &&
  (match zscores, entry zscores key with
    | [], _ => true
    | _, some x => isNum r.zscore (.fin x)
    | _, none => false)

/-- A case of `test_unstacked_fit_regression`, `test_unstacked_fit_classification`, `test_stacked_fit_regression` or
`test_stacked_fit_classification`, `/repo/tests/unit/test_ruleset.py` lines 32-1272 -/
structure Case where
  kind : Kind
  stackedFit : Bool
  xs : Mat
  y : List Label
  xsTest : Option Mat
  yTest : List Label
  rules : List Box
  weights : Option Vote.WeightsArg
  fails : Bool
  coverage : Rat
  act : List Nat
  stacked : Vote.Columns Nat
  covs : List (String × Rat)
  preds : List (String × Label)
  crits : List (String × Num)
  zscores : List (String × Rat)
  pred : List Label
  crit : Num

/-- The test -/
def Case.holds (t : Case) : Bool :=
  let R := rsEnv t.kind none t.stackedFit
  match t.rules.mapM (Box.member t.kind) with
  | .error _ => false
  | .ok rules =>
    match RuleSet.make R rules true true with
    | .error _ => false
    | .ok s =>
      match fit R t.y (some (.arr t.xs)) s with
      | (.error _, _) => false
      | (.ok _, s) =>
        s.trainSize == .num (.fin t.y.length) &&
        match eval R t.yTest (t.xsTest.map .arr) t.weights t.kind s with
        | (.error e, _) => t.fails && e == .valueError
        | (.ok _, s) =>
          !t.fails && s.testSize == .num (.fin t.yTest.length) && s.rulesetCoverage == .num (.fin t.coverage) &&
          s.available == some t.act && s.stacked == some t.stacked &&
          s.rules.all (fun m => ruleHolds R t.kind t.covs t.preds t.crits t.zscores m.rule) && isNum s.criterion t.crit &&
          match (RuleSet.predict R (some (.arr t.xs)) t.weights s).1 with
          | .error _ => false
          | .ok cells => cells.length == t.pred.length && (cells.zip t.pred).all fun p =>
              match p.1 with
              | .label l => nearLabel l p.2
              | .frame => false

/-! ## Rulesets -/

/-- `test_unstacked_fit_regression`, case 1 of 10 -/
example : Case.holds
    { kind := .regression, stackedFit := false
      xs := ⟨2, [[.fin 5, .fin 3], [.fin 3, .fin 4], [.fin 2, .nan], [.fin 2, .fin 4]]⟩
      y := [.num (.fin 1), .num (.fin 3), .num (.fin 2), .num (.fin 1)]
      xsTest := none
      yTest := [.num (.fin 1), .num (.fin 3), .num (.fin 2), .num (.fin 1)]
      rules := [⟨[0], [1], [2]⟩, ⟨[1], [4], [5]⟩]
      weights := none
      fails := false
      coverage := (3/4)
      act := [0, 1, 1, 1]
      stacked := [("X_0 in [1, 2]", [0, 0, 1, 1]), ("X_1 in [4, 5]", [0, 1, 0, 1])]
      covs := [("X_0 in [1, 2]", (1/2)), ("X_1 in [4, 5]", (1/2))]
      preds := [("X_0 in [1, 2]", .num (.fin (3/2))), ("X_1 in [4, 5]", .num (.fin 2))]
      crits := [("X_0 in [1, 2]", .fin (1/4)), ("X_1 in [4, 5]", .fin 1)]
      zscores := [("X_0 in [1, 2]", (42640143/100000000)), ("X_1 in [4, 5]", (42640143/100000000))]
      pred := [.num .nan, .num (.fin 2), .num (.fin (3/2)), .num (.fin (7/4))]
      crit := .fin (29/48) } = true := by decide +kernel

/-- `test_unstacked_fit_regression`, case 2 of 10 -/
example : Case.holds
    { kind := .regression, stackedFit := false
      xs := ⟨2, [[.fin 5, .fin 3], [.fin 3, .fin 4], [.fin 2, .nan], [.fin 2, .fin 4]]⟩
      y := [.num (.fin 1), .num (.fin 3), .num (.fin 2), .num (.fin 1)]
      xsTest := none
      yTest := [.num (.fin 1), .num (.fin 3), .num (.fin 2), .num (.fin 1)]
      rules := [⟨[0], [1], [2]⟩, ⟨[1], [4], [5]⟩]
      weights := some (.series (given [("X_0 in [1, 2]", .fin 1), ("X_1 in [4, 5]", .fin 0)]))
      fails := false
      coverage := (3/4)
      act := [0, 1, 1, 1]
      stacked := [("X_0 in [1, 2]", [0, 0, 1, 1]), ("X_1 in [4, 5]", [0, 1, 0, 1])]
      covs := [("X_0 in [1, 2]", (1/2)), ("X_1 in [4, 5]", (1/2))]
      preds := [("X_0 in [1, 2]", .num (.fin (3/2))), ("X_1 in [4, 5]", .num (.fin 2))]
      crits := [("X_0 in [1, 2]", .fin (1/4)), ("X_1 in [4, 5]", .fin 1)]
      zscores := [("X_0 in [1, 2]", (42640143/100000000)), ("X_1 in [4, 5]", (42640143/100000000))]
      pred := [.num .nan, .num .nan, .num (.fin (3/2)), .num (.fin (3/2))]
      crit := .fin (1/4) } = true := by decide +kernel

/-- `test_unstacked_fit_regression`, case 3 of 10 -/
example : Case.holds
    { kind := .regression, stackedFit := false
      xs := ⟨2, [[.fin 5, .fin 3], [.fin 3, .fin 4], [.fin 2, .nan], [.fin 2, .fin 4]]⟩
      y := [.num (.fin 1), .num (.fin 3), .num (.fin 2), .num (.fin 1)]
      xsTest := none
      yTest := [.num (.fin 1), .num (.fin 3), .num (.fin 2), .num (.fin 1)]
      rules := [⟨[0], [1], [2]⟩, ⟨[1], [4], [5]⟩]
      weights := some (.series (given [("X_0 in [1, 2]", .fin 1)]))
      fails := false
      coverage := (3/4)
      act := [0, 1, 1, 1]
      stacked := [("X_0 in [1, 2]", [0, 0, 1, 1]), ("X_1 in [4, 5]", [0, 1, 0, 1])]
      covs := [("X_0 in [1, 2]", (1/2)), ("X_1 in [4, 5]", (1/2))]
      preds := [("X_0 in [1, 2]", .num (.fin (3/2))), ("X_1 in [4, 5]", .num (.fin 2))]
      crits := [("X_0 in [1, 2]", .fin (1/4)), ("X_1 in [4, 5]", .fin 1)]
      zscores := [("X_0 in [1, 2]", (42640143/100000000)), ("X_1 in [4, 5]", (42640143/100000000))]
      pred := [.num .nan, .num .nan, .num (.fin (3/2)), .num (.fin (3/2))]
      crit := .fin (1/4) } = true := by decide +kernel

/-- `test_unstacked_fit_regression`, case 4 of 10 -/
example : Case.holds
    { kind := .regression, stackedFit := false
      xs := ⟨2, [[.fin 5, .fin 3], [.fin 3, .fin 4], [.fin 2, .nan], [.fin 2, .fin 4]]⟩
      y := [.num (.fin 1), .num (.fin 3), .num (.fin 2), .num (.fin 1)]
      xsTest := none
      yTest := [.num (.fin 1), .num (.fin 3), .num (.fin 2), .num (.fin 1)]
      rules := [⟨[0], [1], [2]⟩, ⟨[1], [4], [5]⟩]
      weights := some (.series (given [("X_0 in [1, 2]", .fin (3/4)), ("X_1 in [4, 5]", .fin 1)]))
      fails := false
      coverage := (3/4)
      act := [0, 1, 1, 1]
      stacked := [("X_0 in [1, 2]", [0, 0, 1, 1]), ("X_1 in [4, 5]", [0, 1, 0, 1])]
      covs := [("X_0 in [1, 2]", (1/2)), ("X_1 in [4, 5]", (1/2))]
      preds := [("X_0 in [1, 2]", .num (.fin (3/2))), ("X_1 in [4, 5]", .num (.fin 2))]
      crits := [("X_0 in [1, 2]", .fin (1/4)), ("X_1 in [4, 5]", .fin 1)]
      zscores := [("X_0 in [1, 2]", (42640143/100000000)), ("X_1 in [4, 5]", (42640143/100000000))]
      pred := [.num .nan, .num (.fin 2), .num (.fin (3/2)), .num (.fin (892857143/500000000))]
      crit := .fin (194515306122449/312500000000000) } = true := by decide +kernel

/-- `test_unstacked_fit_regression`, case 5 of 10 -/
example : Case.holds
    { kind := .regression, stackedFit := false
      xs := ⟨2, [[.fin 5, .fin 3], [.fin 3, .fin 4], [.fin 2, .nan], [.fin 2, .fin 4]]⟩
      y := [.num (.fin 1), .num (.fin 3), .num (.fin 2), .num (.fin 1)]
      xsTest := none
      yTest := [.num (.fin 1), .num (.fin 3), .num (.fin 2), .num (.fin 1)]
      rules := [⟨[0], [1], [2]⟩, ⟨[1], [4], [5]⟩]
      weights := some (.attr "criterion")
      fails := false
      coverage := (3/4)
      act := [0, 1, 1, 1]
      stacked := [("X_0 in [1, 2]", [0, 0, 1, 1]), ("X_1 in [4, 5]", [0, 1, 0, 1])]
      covs := [("X_0 in [1, 2]", (1/2)), ("X_1 in [4, 5]", (1/2))]
      preds := [("X_0 in [1, 2]", .num (.fin (3/2))), ("X_1 in [4, 5]", .num (.fin 2))]
      crits := [("X_0 in [1, 2]", .fin (1/4)), ("X_1 in [4, 5]", .fin 1)]
      zscores := [("X_0 in [1, 2]", (42640143/100000000)), ("X_1 in [4, 5]", (42640143/100000000))]
      pred := [.num .nan, .num (.fin 2), .num (.fin (3/2)), .num (.fin (19/10))]
      crit := .fin (103/150) } = true := by decide +kernel

/-- `test_unstacked_fit_regression`, case 6 of 10 -/
example : Case.holds
    { kind := .regression, stackedFit := false
      xs := ⟨2, [[.fin 5, .fin 3], [.fin 3, .fin 4], [.fin 2, .nan], [.fin 2, .fin 4]]⟩
      y := [.num (.fin 1), .num (.fin 3), .num (.fin 2), .num (.fin 1)]
      xsTest := some ⟨2, [[.fin 1, .fin 2], [.nan, .fin 3]]⟩
      yTest := [.num (.fin 1), .num (.fin 2)]
      rules := [⟨[0], [1], [2]⟩, ⟨[1], [4], [5]⟩]
      weights := none
      fails := false
      coverage := (3/4)
      act := [0, 1, 1, 1]
      stacked := [("X_0 in [1, 2]", [0, 0, 1, 1]), ("X_1 in [4, 5]", [0, 1, 0, 1])]
      covs := [("X_0 in [1, 2]", (1/2)), ("X_1 in [4, 5]", (1/2))]
      preds := [("X_0 in [1, 2]", .num (.fin (3/2))), ("X_1 in [4, 5]", .num (.fin 2))]
      crits := [("X_0 in [1, 2]", .fin (1/4)), ("X_1 in [4, 5]", .nan)]
      zscores := [("X_0 in [1, 2]", (42640143/100000000)), ("X_1 in [4, 5]", (42640143/100000000))]
      pred := [.num .nan, .num (.fin 2), .num (.fin (3/2)), .num (.fin (7/4))]
      crit := .fin (1/4) } = true := by decide +kernel

/-- `test_unstacked_fit_regression`, case 7 of 10 -/
example : Case.holds
    { kind := .regression, stackedFit := false
      xs := ⟨2, [[.fin 5, .fin 3], [.fin 3, .fin 4], [.fin 2, .nan], [.fin 2, .fin 4]]⟩
      y := [.num (.fin 1), .num (.fin 3), .num (.fin 2), .num (.fin 1)]
      xsTest := some ⟨2, [[.fin 1, .fin 2], [.nan, .fin 3]]⟩
      yTest := [.num (.fin 1), .num (.fin 2)]
      rules := [⟨[0], [1], [2]⟩, ⟨[1], [4], [5]⟩]
      weights := some (.series (given [("X_0 in [1, 2]", .fin 1), ("X_1 in [4, 5]", .fin 0)]))
      fails := false
      coverage := (3/4)
      act := [0, 1, 1, 1]
      stacked := [("X_0 in [1, 2]", [0, 0, 1, 1]), ("X_1 in [4, 5]", [0, 1, 0, 1])]
      covs := [("X_0 in [1, 2]", (1/2)), ("X_1 in [4, 5]", (1/2))]
      preds := [("X_0 in [1, 2]", .num (.fin (3/2))), ("X_1 in [4, 5]", .num (.fin 2))]
      crits := [("X_0 in [1, 2]", .fin (1/4)), ("X_1 in [4, 5]", .nan)]
      zscores := [("X_0 in [1, 2]", (42640143/100000000)), ("X_1 in [4, 5]", (42640143/100000000))]
      pred := [.num .nan, .num .nan, .num (.fin (3/2)), .num (.fin (3/2))]
      crit := .fin (1/4) } = true := by decide +kernel

/-- `test_unstacked_fit_regression`, case 8 of 10 -/
example : Case.holds
    { kind := .regression, stackedFit := false
      xs := ⟨2, [[.fin 5, .fin 3], [.fin 3, .fin 4], [.fin 2, .nan], [.fin 2, .fin 4]]⟩
      y := [.num (.fin 1), .num (.fin 3), .num (.fin 2), .num (.fin 1)]
      xsTest := some ⟨2, [[.fin 1, .fin 2], [.nan, .fin 3]]⟩
      yTest := [.num (.fin 1), .num (.fin 2)]
      rules := [⟨[0], [1], [2]⟩, ⟨[1], [4], [5]⟩]
      weights := some (.series (given [("X_0 in [1, 2]", .fin 1)]))
      fails := false
      coverage := (3/4)
      act := [0, 1, 1, 1]
      stacked := [("X_0 in [1, 2]", [0, 0, 1, 1]), ("X_1 in [4, 5]", [0, 1, 0, 1])]
      covs := [("X_0 in [1, 2]", (1/2)), ("X_1 in [4, 5]", (1/2))]
      preds := [("X_0 in [1, 2]", .num (.fin (3/2))), ("X_1 in [4, 5]", .num (.fin 2))]
      crits := [("X_0 in [1, 2]", .fin (1/4)), ("X_1 in [4, 5]", .nan)]
      zscores := [("X_0 in [1, 2]", (42640143/100000000)), ("X_1 in [4, 5]", (42640143/100000000))]
      pred := [.num .nan, .num .nan, .num (.fin (3/2)), .num (.fin (3/2))]
      crit := .fin (1/4) } = true := by decide +kernel

/-- `test_unstacked_fit_regression`, case 9 of 10 -/
example : Case.holds
    { kind := .regression, stackedFit := false
      xs := ⟨2, [[.fin 5, .fin 3], [.fin 3, .fin 4], [.fin 2, .nan], [.fin 2, .fin 4]]⟩
      y := [.num (.fin 1), .num (.fin 3), .num (.fin 2), .num (.fin 1)]
      xsTest := some ⟨2, [[.fin 1, .fin 2], [.nan, .fin 3]]⟩
      yTest := [.num (.fin 1), .num (.fin 2)]
      rules := [⟨[0], [1], [2]⟩, ⟨[1], [4], [5]⟩]
      weights := some (.series (given [("X_0 in [1, 2]", .fin (3/4)), ("X_1 in [4, 5]", .fin 1)]))
      fails := false
      coverage := (3/4)
      act := [0, 1, 1, 1]
      stacked := [("X_0 in [1, 2]", [0, 0, 1, 1]), ("X_1 in [4, 5]", [0, 1, 0, 1])]
      covs := [("X_0 in [1, 2]", (1/2)), ("X_1 in [4, 5]", (1/2))]
      preds := [("X_0 in [1, 2]", .num (.fin (3/2))), ("X_1 in [4, 5]", .num (.fin 2))]
      crits := [("X_0 in [1, 2]", .fin (1/4)), ("X_1 in [4, 5]", .nan)]
      zscores := [("X_0 in [1, 2]", (42640143/100000000)), ("X_1 in [4, 5]", (42640143/100000000))]
      pred := [.num .nan, .num (.fin 2), .num (.fin (3/2)), .num (.fin (892857143/500000000))]
      crit := .fin (1/4) } = true := by decide +kernel

/-- `test_unstacked_fit_regression`, case 10 of 10 -/
example : Case.holds
    { kind := .regression, stackedFit := false
      xs := ⟨2, [[.fin 5, .fin 3], [.fin 3, .fin 4], [.fin 2, .nan], [.fin 2, .fin 4]]⟩
      y := [.num (.fin 1), .num (.fin 3), .num (.fin 2), .num (.fin 1)]
      xsTest := some ⟨2, [[.fin 1, .fin 2], [.nan, .fin 3]]⟩
      yTest := [.num (.fin 1), .num (.fin 2)]
      rules := [⟨[0], [1], [2]⟩, ⟨[1], [4], [5]⟩]
      weights := some (.attr "criterion")
      fails := false
      coverage := (3/4)
      act := [0, 1, 1, 1]
      stacked := [("X_0 in [1, 2]", [0, 0, 1, 1]), ("X_1 in [4, 5]", [0, 1, 0, 1])]
      covs := [("X_0 in [1, 2]", (1/2)), ("X_1 in [4, 5]", (1/2))]
      preds := [("X_0 in [1, 2]", .num (.fin (3/2))), ("X_1 in [4, 5]", .num (.fin 2))]
      crits := [("X_0 in [1, 2]", .fin (1/4)), ("X_1 in [4, 5]", .nan)]
      zscores := [("X_0 in [1, 2]", (42640143/100000000)), ("X_1 in [4, 5]", (42640143/100000000))]
      pred := [.num .nan, .num .nan, .num (.fin (3/2)), .num (.fin (3/2))]
      crit := .fin (1/4) } = true := by decide +kernel

/-- `test_unstacked_fit_classification`, case 1 of 10 -/
example : Case.holds
    { kind := .classification, stackedFit := false
      xs := ⟨2, [[.fin 5, .fin 3], [.fin 5, .fin 4], [.fin 2, .nan], [.fin 2, .fin 4], [.fin 2, .fin 6]]⟩
      y := [.num (.fin 1), .num (.fin 3), .num (.fin 2), .num (.fin 2), .num (.fin 3)]
      xsTest := none
      yTest := [.num (.fin 1), .num (.fin 3), .num (.fin 2), .num (.fin 2), .num (.fin 3)]
      rules := [⟨[0], [1], [2]⟩, ⟨[1], [4], [6]⟩, ⟨[0, 1], [2, 4], [3, 5]⟩]
      weights := none
      fails := false
      coverage := (4/5)
      act := [0, 1, 1, 1, 1]
      stacked := [("X_0 in [1, 2]", [0, 0, 1, 1, 1]), ("X_1 in [4, 6]", [0, 1, 0, 1, 1]), ("X_0 in [2, 3] AND X_1 in [4, 5]", [0, 0, 0, 1, 0])]
      covs := [("X_0 in [1, 2]", (3/5)), ("X_1 in [4, 6]", (3/5)), ("X_0 in [2, 3] AND X_1 in [4, 5]", (1/5))]
      preds := [("X_0 in [1, 2]", .num (.fin 2)), ("X_1 in [4, 6]", .num (.fin 3)), ("X_0 in [2, 3] AND X_1 in [4, 5]", .num (.fin 2))]
      crits := [("X_0 in [1, 2]", .fin (2/3)), ("X_1 in [4, 6]", .fin (2/3)), ("X_0 in [2, 3] AND X_1 in [4, 5]", .fin 1)]
      zscores := []
      pred := [.num .nan, .num (.fin 3), .num (.fin 2), .num (.fin 2), .num .nan]
      crit := .fin 1 } = true := by decide +kernel

/-- `test_unstacked_fit_classification`, case 2 of 10 -/
example : Case.holds
    { kind := .classification, stackedFit := false
      xs := ⟨2, [[.fin 5, .fin 3], [.fin 5, .fin 4], [.fin 2, .nan], [.fin 2, .fin 4], [.fin 2, .fin 6]]⟩
      y := [.num (.fin 1), .num (.fin 3), .num (.fin 2), .num (.fin 2), .num (.fin 3)]
      xsTest := none
      yTest := [.num (.fin 1), .num (.fin 3), .num (.fin 2), .num (.fin 2), .num (.fin 3)]
      rules := [⟨[0], [1], [2]⟩, ⟨[1], [4], [6]⟩, ⟨[0, 1], [2, 4], [3, 5]⟩]
      weights := some (.series (given [("X_0 in [1, 2]", .fin 1), ("X_1 in [4, 6]", .fin 0), ("X_0 in [2, 3] AND X_1 in [4, 5]", .fin 1)]))
      fails := false
      coverage := (4/5)
      act := [0, 1, 1, 1, 1]
      stacked := [("X_0 in [1, 2]", [0, 0, 1, 1, 1]), ("X_1 in [4, 6]", [0, 1, 0, 1, 1]), ("X_0 in [2, 3] AND X_1 in [4, 5]", [0, 0, 0, 1, 0])]
      covs := [("X_0 in [1, 2]", (3/5)), ("X_1 in [4, 6]", (3/5)), ("X_0 in [2, 3] AND X_1 in [4, 5]", (1/5))]
      preds := [("X_0 in [1, 2]", .num (.fin 2)), ("X_1 in [4, 6]", .num (.fin 3)), ("X_0 in [2, 3] AND X_1 in [4, 5]", .num (.fin 2))]
      crits := [("X_0 in [1, 2]", .fin (2/3)), ("X_1 in [4, 6]", .fin (2/3)), ("X_0 in [2, 3] AND X_1 in [4, 5]", .fin 1)]
      zscores := []
      pred := [.num .nan, .num .nan, .num (.fin 2), .num (.fin 2), .num (.fin 2)]
      crit := .fin (2/3) } = true := by decide +kernel

/-- `test_unstacked_fit_classification`, case 3 of 10 -/
example : Case.holds
    { kind := .classification, stackedFit := false
      xs := ⟨2, [[.fin 5, .fin 3], [.fin 5, .fin 4], [.fin 2, .nan], [.fin 2, .fin 4], [.fin 2, .fin 6]]⟩
      y := [.num (.fin 1), .num (.fin 3), .num (.fin 2), .num (.fin 2), .num (.fin 3)]
      xsTest := none
      yTest := [.num (.fin 1), .num (.fin 3), .num (.fin 2), .num (.fin 2), .num (.fin 3)]
      rules := [⟨[0], [1], [2]⟩, ⟨[1], [4], [6]⟩, ⟨[0, 1], [2, 4], [3, 5]⟩]
      weights := some (.series (given [("X_1 in [4, 6]", .fin (1/2)), ("X_0 in [2, 3] AND X_1 in [4, 5]", .fin 1)]))
      fails := false
      coverage := (4/5)
      act := [0, 1, 1, 1, 1]
      stacked := [("X_0 in [1, 2]", [0, 0, 1, 1, 1]), ("X_1 in [4, 6]", [0, 1, 0, 1, 1]), ("X_0 in [2, 3] AND X_1 in [4, 5]", [0, 0, 0, 1, 0])]
      covs := [("X_0 in [1, 2]", (3/5)), ("X_1 in [4, 6]", (3/5)), ("X_0 in [2, 3] AND X_1 in [4, 5]", (1/5))]
      preds := [("X_0 in [1, 2]", .num (.fin 2)), ("X_1 in [4, 6]", .num (.fin 3)), ("X_0 in [2, 3] AND X_1 in [4, 5]", .num (.fin 2))]
      crits := [("X_0 in [1, 2]", .fin (2/3)), ("X_1 in [4, 6]", .fin (2/3)), ("X_0 in [2, 3] AND X_1 in [4, 5]", .fin 1)]
      zscores := []
      pred := [.num .nan, .num (.fin 3), .num .nan, .num (.fin 2), .num (.fin 3)]
      crit := .fin 1 } = true := by decide +kernel

/-- `test_unstacked_fit_classification`, case 4 of 10 -/
example : Case.holds
    { kind := .classification, stackedFit := false
      xs := ⟨2, [[.fin 5, .fin 3], [.fin 5, .fin 4], [.fin 2, .nan], [.fin 2, .fin 4], [.fin 2, .fin 6]]⟩
      y := [.num (.fin 1), .num (.fin 3), .num (.fin 2), .num (.fin 2), .num (.fin 3)]
      xsTest := none
      yTest := [.num (.fin 1), .num (.fin 3), .num (.fin 2), .num (.fin 2), .num (.fin 3)]
      rules := [⟨[0], [1], [2]⟩, ⟨[1], [4], [6]⟩, ⟨[0, 1], [2, 4], [3, 5]⟩]
      weights := some (.attr "criterion")
      fails := false
      coverage := (4/5)
      act := [0, 1, 1, 1, 1]
      stacked := [("X_0 in [1, 2]", [0, 0, 1, 1, 1]), ("X_1 in [4, 6]", [0, 1, 0, 1, 1]), ("X_0 in [2, 3] AND X_1 in [4, 5]", [0, 0, 0, 1, 0])]
      covs := [("X_0 in [1, 2]", (3/5)), ("X_1 in [4, 6]", (3/5)), ("X_0 in [2, 3] AND X_1 in [4, 5]", (1/5))]
      preds := [("X_0 in [1, 2]", .num (.fin 2)), ("X_1 in [4, 6]", .num (.fin 3)), ("X_0 in [2, 3] AND X_1 in [4, 5]", .num (.fin 2))]
      crits := [("X_0 in [1, 2]", .fin (2/3)), ("X_1 in [4, 6]", .fin (2/3)), ("X_0 in [2, 3] AND X_1 in [4, 5]", .fin 1)]
      zscores := []
      pred := [.num .nan, .num (.fin 3), .num (.fin 2), .num (.fin 2), .num .nan]
      crit := .fin 1 } = true := by decide +kernel

/-- `test_unstacked_fit_classification`, case 5 of 10 -/
example : Case.holds
    { kind := .classification, stackedFit := false
      xs := ⟨2, [[.fin 5, .fin 3], [.fin 5, .fin 4], [.fin 2, .nan], [.fin 2, .fin 4], [.fin 2, .fin 6]]⟩
      y := [.text "a", .text "c", .text "b", .text "b", .text "c"]
      xsTest := none
      yTest := [.text "a", .text "c", .text "b", .text "b", .text "c"]
      rules := [⟨[0], [1], [2]⟩, ⟨[1], [4], [6]⟩, ⟨[0, 1], [2, 4], [3, 5]⟩]
      weights := some (.attr "criterion")
      fails := false
      coverage := (4/5)
      act := [0, 1, 1, 1, 1]
      stacked := [("X_0 in [1, 2]", [0, 0, 1, 1, 1]), ("X_1 in [4, 6]", [0, 1, 0, 1, 1]), ("X_0 in [2, 3] AND X_1 in [4, 5]", [0, 0, 0, 1, 0])]
      covs := [("X_0 in [1, 2]", (3/5)), ("X_1 in [4, 6]", (3/5)), ("X_0 in [2, 3] AND X_1 in [4, 5]", (1/5))]
      preds := [("X_0 in [1, 2]", .text "b"), ("X_1 in [4, 6]", .text "c"), ("X_0 in [2, 3] AND X_1 in [4, 5]", .text "b")]
      crits := [("X_0 in [1, 2]", .fin (2/3)), ("X_1 in [4, 6]", .fin (2/3)), ("X_0 in [2, 3] AND X_1 in [4, 5]", .fin 1)]
      zscores := []
      pred := [.num .nan, .text "c", .text "b", .text "b", .num .nan]
      crit := .fin 1 } = true := by decide +kernel

/-- `test_unstacked_fit_classification`, case 6 of 10 -/
example : Case.holds
    { kind := .classification, stackedFit := false
      xs := ⟨2, [[.fin 5, .fin 3], [.fin 5, .fin 4], [.fin 2, .nan], [.fin 2, .fin 4], [.fin 2, .fin 6]]⟩
      y := [.num (.fin 1), .num (.fin 3), .num (.fin 2), .num (.fin 2), .num (.fin 3)]
      xsTest := some ⟨2, [[.fin 1, .fin 2], [.nan, .fin 3]]⟩
      yTest := [.num (.fin 1), .num (.fin 2)]
      rules := [⟨[0], [1], [2]⟩, ⟨[1], [4], [6]⟩, ⟨[0, 1], [2, 4], [3, 5]⟩]
      weights := none
      fails := false
      coverage := (4/5)
      act := [0, 1, 1, 1, 1]
      stacked := [("X_0 in [1, 2]", [0, 0, 1, 1, 1]), ("X_1 in [4, 6]", [0, 1, 0, 1, 1]), ("X_0 in [2, 3] AND X_1 in [4, 5]", [0, 0, 0, 1, 0])]
      covs := [("X_0 in [1, 2]", (3/5)), ("X_1 in [4, 6]", (3/5)), ("X_0 in [2, 3] AND X_1 in [4, 5]", (1/5))]
      preds := [("X_0 in [1, 2]", .num (.fin 2)), ("X_1 in [4, 6]", .num (.fin 3)), ("X_0 in [2, 3] AND X_1 in [4, 5]", .num (.fin 2))]
      crits := [("X_0 in [1, 2]", .fin 0), ("X_1 in [4, 6]", .nan), ("X_0 in [2, 3] AND X_1 in [4, 5]", .nan)]
      zscores := []
      pred := [.num .nan, .num (.fin 3), .num (.fin 2), .num (.fin 2), .num .nan]
      crit := .fin 0 } = true := by decide +kernel

/-- `test_unstacked_fit_classification`, case 7 of 10 -/
example : Case.holds
    { kind := .classification, stackedFit := false
      xs := ⟨2, [[.fin 5, .fin 3], [.fin 5, .fin 4], [.fin 2, .nan], [.fin 2, .fin 4], [.fin 2, .fin 6]]⟩
      y := [.num (.fin 1), .num (.fin 3), .num (.fin 2), .num (.fin 2), .num (.fin 3)]
      xsTest := some ⟨2, [[.fin 1, .fin 2], [.nan, .fin 3]]⟩
      yTest := [.num (.fin 1), .num (.fin 2)]
      rules := [⟨[0], [1], [2]⟩, ⟨[1], [4], [6]⟩, ⟨[0, 1], [2, 4], [3, 5]⟩]
      weights := some (.series (given [("X_0 in [1, 2]", .fin 1), ("X_1 in [4, 6]", .fin 0), ("X_0 in [2, 3] AND X_1 in [4, 5]", .fin 1)]))
      fails := false
      coverage := (4/5)
      act := [0, 1, 1, 1, 1]
      stacked := [("X_0 in [1, 2]", [0, 0, 1, 1, 1]), ("X_1 in [4, 6]", [0, 1, 0, 1, 1]), ("X_0 in [2, 3] AND X_1 in [4, 5]", [0, 0, 0, 1, 0])]
      covs := [("X_0 in [1, 2]", (3/5)), ("X_1 in [4, 6]", (3/5)), ("X_0 in [2, 3] AND X_1 in [4, 5]", (1/5))]
      preds := [("X_0 in [1, 2]", .num (.fin 2)), ("X_1 in [4, 6]", .num (.fin 3)), ("X_0 in [2, 3] AND X_1 in [4, 5]", .num (.fin 2))]
      crits := [("X_0 in [1, 2]", .fin 0), ("X_1 in [4, 6]", .nan), ("X_0 in [2, 3] AND X_1 in [4, 5]", .nan)]
      zscores := []
      pred := [.num .nan, .num .nan, .num (.fin 2), .num (.fin 2), .num (.fin 2)]
      crit := .fin 0 } = true := by decide +kernel

/-- `test_unstacked_fit_classification`, case 8 of 10 -/
example : Case.holds
    { kind := .classification, stackedFit := false
      xs := ⟨2, [[.fin 5, .fin 3], [.fin 5, .fin 4], [.fin 2, .nan], [.fin 2, .fin 4], [.fin 2, .fin 6]]⟩
      y := [.num (.fin 1), .num (.fin 3), .num (.fin 2), .num (.fin 2), .num (.fin 3)]
      xsTest := some ⟨2, [[.fin 1, .fin 2], [.nan, .fin 3]]⟩
      yTest := [.num (.fin 1), .num (.fin 2)]
      rules := [⟨[0], [1], [2]⟩, ⟨[1], [4], [6]⟩, ⟨[0, 1], [2, 4], [3, 5]⟩]
      weights := some (.series (given [("X_1 in [4, 6]", .fin (1/2)), ("X_0 in [2, 3] AND X_1 in [4, 5]", .fin 1)]))
      fails := true
      coverage := (4/5)
      act := [0, 1, 1, 1, 1]
      stacked := [("X_0 in [1, 2]", [0, 0, 1, 1, 1]), ("X_1 in [4, 6]", [0, 1, 0, 1, 1]), ("X_0 in [2, 3] AND X_1 in [4, 5]", [0, 0, 0, 1, 0])]
      covs := [("X_0 in [1, 2]", (3/5)), ("X_1 in [4, 6]", (3/5)), ("X_0 in [2, 3] AND X_1 in [4, 5]", (1/5))]
      preds := [("X_0 in [1, 2]", .num (.fin 2)), ("X_1 in [4, 6]", .num (.fin 3)), ("X_0 in [2, 3] AND X_1 in [4, 5]", .num (.fin 2))]
      crits := [("X_0 in [1, 2]", .fin 0), ("X_1 in [4, 6]", .nan), ("X_0 in [2, 3] AND X_1 in [4, 5]", .nan)]
      zscores := []
      pred := []
      crit := .nan } = true := by decide +kernel

/-- `test_unstacked_fit_classification`, case 9 of 10 -/
example : Case.holds
    { kind := .classification, stackedFit := false
      xs := ⟨2, [[.fin 5, .fin 3], [.fin 5, .fin 4], [.fin 2, .nan], [.fin 2, .fin 4], [.fin 2, .fin 6]]⟩
      y := [.num (.fin 1), .num (.fin 3), .num (.fin 2), .num (.fin 2), .num (.fin 3)]
      xsTest := some ⟨2, [[.fin 1, .fin 2], [.nan, .fin 3]]⟩
      yTest := [.num (.fin 1), .num (.fin 2)]
      rules := [⟨[0], [1], [2]⟩, ⟨[1], [4], [6]⟩, ⟨[0, 1], [2, 4], [3, 5]⟩]
      weights := some (.attr "criterion")
      fails := true
      coverage := (4/5)
      act := [0, 1, 1, 1, 1]
      stacked := [("X_0 in [1, 2]", [0, 0, 1, 1, 1]), ("X_1 in [4, 6]", [0, 1, 0, 1, 1]), ("X_0 in [2, 3] AND X_1 in [4, 5]", [0, 0, 0, 1, 0])]
      covs := [("X_0 in [1, 2]", (3/5)), ("X_1 in [4, 6]", (3/5)), ("X_0 in [2, 3] AND X_1 in [4, 5]", (1/5))]
      preds := [("X_0 in [1, 2]", .num (.fin 2)), ("X_1 in [4, 6]", .num (.fin 3)), ("X_0 in [2, 3] AND X_1 in [4, 5]", .num (.fin 2))]
      crits := [("X_0 in [1, 2]", .fin 0), ("X_1 in [4, 6]", .nan), ("X_0 in [2, 3] AND X_1 in [4, 5]", .nan)]
      zscores := []
      pred := []
      crit := .nan } = true := by decide +kernel

/-- `test_unstacked_fit_classification`, case 10 of 10 -/
example : Case.holds
    { kind := .classification, stackedFit := false
      xs := ⟨2, [[.fin 5, .fin 3], [.fin 5, .fin 4], [.fin 2, .nan], [.fin 2, .fin 4], [.fin 2, .fin 6]]⟩
      y := [.text "a", .text "c", .text "b", .text "b", .text "c"]
      xsTest := some ⟨2, [[.fin 1, .fin 2], [.nan, .fin 3]]⟩
      yTest := [.text "a", .text "b"]
      rules := [⟨[0], [1], [2]⟩, ⟨[1], [4], [6]⟩, ⟨[0, 1], [2, 4], [3, 5]⟩]
      weights := some (.attr "criterion")
      fails := true
      coverage := (4/5)
      act := [0, 1, 1, 1, 1]
      stacked := [("X_0 in [1, 2]", [0, 0, 1, 1, 1]), ("X_1 in [4, 6]", [0, 1, 0, 1, 1]), ("X_0 in [2, 3] AND X_1 in [4, 5]", [0, 0, 0, 1, 0])]
      covs := [("X_0 in [1, 2]", (3/5)), ("X_1 in [4, 6]", (3/5)), ("X_0 in [2, 3] AND X_1 in [4, 5]", (1/5))]
      preds := [("X_0 in [1, 2]", .text "b"), ("X_1 in [4, 6]", .text "c"), ("X_0 in [2, 3] AND X_1 in [4, 5]", .text "b")]
      crits := [("X_0 in [1, 2]", .fin 0), ("X_1 in [4, 6]", .nan), ("X_0 in [2, 3] AND X_1 in [4, 5]", .nan)]
      zscores := []
      pred := []
      crit := .nan } = true := by decide +kernel

/-- `test_stacked_fit_regression`, case 1 of 10 -/
example : Case.holds
    { kind := .regression, stackedFit := true
      xs := ⟨2, [[.fin 5, .fin 3], [.fin 3, .fin 4], [.fin 2, .nan], [.fin 2, .fin 4]]⟩
      y := [.num (.fin 1), .num (.fin 3), .num (.fin 2), .num (.fin 1)]
      xsTest := none
      yTest := [.num (.fin 1), .num (.fin 3), .num (.fin 2), .num (.fin 1)]
      rules := [⟨[0], [1], [2]⟩, ⟨[1], [4], [5]⟩]
      weights := none
      fails := false
      coverage := (3/4)
      act := [0, 1, 1, 1]
      stacked := [("X_0 in [1, 2]", [0, 0, 1, 1]), ("X_1 in [4, 5]", [0, 1, 0, 1])]
      covs := [("X_0 in [1, 2]", (1/2)), ("X_1 in [4, 5]", (1/2))]
      preds := [("X_0 in [1, 2]", .num (.fin (3/2))), ("X_1 in [4, 5]", .num (.fin 2))]
      crits := [("X_0 in [1, 2]", .fin (1/4)), ("X_1 in [4, 5]", .fin 1)]
      zscores := [("X_0 in [1, 2]", (42640143/100000000)), ("X_1 in [4, 5]", (42640143/100000000))]
      pred := [.num .nan, .num (.fin 2), .num (.fin (3/2)), .num (.fin (7/4))]
      crit := .fin (29/48) } = true := by decide +kernel

/-- `test_stacked_fit_regression`, case 2 of 10 -/
example : Case.holds
    { kind := .regression, stackedFit := true
      xs := ⟨2, [[.fin 5, .fin 3], [.fin 3, .fin 4], [.fin 2, .nan], [.fin 2, .fin 4]]⟩
      y := [.num (.fin 1), .num (.fin 3), .num (.fin 2), .num (.fin 1)]
      xsTest := none
      yTest := [.num (.fin 1), .num (.fin 3), .num (.fin 2), .num (.fin 1)]
      rules := [⟨[0], [1], [2]⟩, ⟨[1], [4], [5]⟩]
      weights := some (.series (given [("X_0 in [1, 2]", .fin 1), ("X_1 in [4, 5]", .fin 0)]))
      fails := false
      coverage := (3/4)
      act := [0, 1, 1, 1]
      stacked := [("X_0 in [1, 2]", [0, 0, 1, 1]), ("X_1 in [4, 5]", [0, 1, 0, 1])]
      covs := [("X_0 in [1, 2]", (1/2)), ("X_1 in [4, 5]", (1/2))]
      preds := [("X_0 in [1, 2]", .num (.fin (3/2))), ("X_1 in [4, 5]", .num (.fin 2))]
      crits := [("X_0 in [1, 2]", .fin (1/4)), ("X_1 in [4, 5]", .fin 1)]
      zscores := [("X_0 in [1, 2]", (42640143/100000000)), ("X_1 in [4, 5]", (42640143/100000000))]
      pred := [.num .nan, .num .nan, .num (.fin (3/2)), .num (.fin (3/2))]
      crit := .fin (1/4) } = true := by decide +kernel

/-- `test_stacked_fit_regression`, case 3 of 10 -/
example : Case.holds
    { kind := .regression, stackedFit := true
      xs := ⟨2, [[.fin 5, .fin 3], [.fin 3, .fin 4], [.fin 2, .nan], [.fin 2, .fin 4]]⟩
      y := [.num (.fin 1), .num (.fin 3), .num (.fin 2), .num (.fin 1)]
      xsTest := none
      yTest := [.num (.fin 1), .num (.fin 3), .num (.fin 2), .num (.fin 1)]
      rules := [⟨[0], [1], [2]⟩, ⟨[1], [4], [5]⟩]
      weights := some (.series (given [("X_0 in [1, 2]", .fin 1)]))
      fails := false
      coverage := (3/4)
      act := [0, 1, 1, 1]
      stacked := [("X_0 in [1, 2]", [0, 0, 1, 1]), ("X_1 in [4, 5]", [0, 1, 0, 1])]
      covs := [("X_0 in [1, 2]", (1/2)), ("X_1 in [4, 5]", (1/2))]
      preds := [("X_0 in [1, 2]", .num (.fin (3/2))), ("X_1 in [4, 5]", .num (.fin 2))]
      crits := [("X_0 in [1, 2]", .fin (1/4)), ("X_1 in [4, 5]", .fin 1)]
      zscores := [("X_0 in [1, 2]", (42640143/100000000)), ("X_1 in [4, 5]", (42640143/100000000))]
      pred := [.num .nan, .num .nan, .num (.fin (3/2)), .num (.fin (3/2))]
      crit := .fin (1/4) } = true := by decide +kernel

/-- `test_stacked_fit_regression`, case 4 of 10 -/
example : Case.holds
    { kind := .regression, stackedFit := true
      xs := ⟨2, [[.fin 5, .fin 3], [.fin 3, .fin 4], [.fin 2, .nan], [.fin 2, .fin 4]]⟩
      y := [.num (.fin 1), .num (.fin 3), .num (.fin 2), .num (.fin 1)]
      xsTest := none
      yTest := [.num (.fin 1), .num (.fin 3), .num (.fin 2), .num (.fin 1)]
      rules := [⟨[0], [1], [2]⟩, ⟨[1], [4], [5]⟩]
      weights := some (.series (given [("X_0 in [1, 2]", .fin (3/4)), ("X_1 in [4, 5]", .fin 1)]))
      fails := false
      coverage := (3/4)
      act := [0, 1, 1, 1]
      stacked := [("X_0 in [1, 2]", [0, 0, 1, 1]), ("X_1 in [4, 5]", [0, 1, 0, 1])]
      covs := [("X_0 in [1, 2]", (1/2)), ("X_1 in [4, 5]", (1/2))]
      preds := [("X_0 in [1, 2]", .num (.fin (3/2))), ("X_1 in [4, 5]", .num (.fin 2))]
      crits := [("X_0 in [1, 2]", .fin (1/4)), ("X_1 in [4, 5]", .fin 1)]
      zscores := [("X_0 in [1, 2]", (42640143/100000000)), ("X_1 in [4, 5]", (42640143/100000000))]
      pred := [.num .nan, .num (.fin 2), .num (.fin (3/2)), .num (.fin (892857143/500000000))]
      crit := .fin (194515306122449/312500000000000) } = true := by decide +kernel

/-- `test_stacked_fit_regression`, case 5 of 10 -/
example : Case.holds
    { kind := .regression, stackedFit := true
      xs := ⟨2, [[.fin 5, .fin 3], [.fin 3, .fin 4], [.fin 2, .nan], [.fin 2, .fin 4]]⟩
      y := [.num (.fin 1), .num (.fin 3), .num (.fin 2), .num (.fin 1)]
      xsTest := none
      yTest := [.num (.fin 1), .num (.fin 3), .num (.fin 2), .num (.fin 1)]
      rules := [⟨[0], [1], [2]⟩, ⟨[1], [4], [5]⟩]
      weights := some (.attr "criterion")
      fails := false
      coverage := (3/4)
      act := [0, 1, 1, 1]
      stacked := [("X_0 in [1, 2]", [0, 0, 1, 1]), ("X_1 in [4, 5]", [0, 1, 0, 1])]
      covs := [("X_0 in [1, 2]", (1/2)), ("X_1 in [4, 5]", (1/2))]
      preds := [("X_0 in [1, 2]", .num (.fin (3/2))), ("X_1 in [4, 5]", .num (.fin 2))]
      crits := [("X_0 in [1, 2]", .fin (1/4)), ("X_1 in [4, 5]", .fin 1)]
      zscores := [("X_0 in [1, 2]", (42640143/100000000)), ("X_1 in [4, 5]", (42640143/100000000))]
      pred := [.num .nan, .num (.fin 2), .num (.fin (3/2)), .num (.fin (19/10))]
      crit := .fin (103/150) } = true := by decide +kernel

/-- `test_stacked_fit_regression`, case 6 of 10 -/
example : Case.holds
    { kind := .regression, stackedFit := true
      xs := ⟨2, [[.fin 5, .fin 3], [.fin 3, .fin 4], [.fin 2, .nan], [.fin 2, .fin 4]]⟩
      y := [.num (.fin 1), .num (.fin 3), .num (.fin 2), .num (.fin 1)]
      xsTest := some ⟨2, [[.fin 1, .fin 2], [.nan, .fin 3]]⟩
      yTest := [.num (.fin 1), .num (.fin 2)]
      rules := [⟨[0], [1], [2]⟩, ⟨[1], [4], [5]⟩]
      weights := none
      fails := false
      coverage := (3/4)
      act := [0, 1, 1, 1]
      stacked := [("X_0 in [1, 2]", [0, 0, 1, 1]), ("X_1 in [4, 5]", [0, 1, 0, 1])]
      covs := [("X_0 in [1, 2]", (1/2)), ("X_1 in [4, 5]", (1/2))]
      preds := [("X_0 in [1, 2]", .num (.fin (3/2))), ("X_1 in [4, 5]", .num (.fin 2))]
      crits := [("X_0 in [1, 2]", .fin (1/4)), ("X_1 in [4, 5]", .nan)]
      zscores := [("X_0 in [1, 2]", (42640143/100000000)), ("X_1 in [4, 5]", (42640143/100000000))]
      pred := [.num .nan, .num (.fin 2), .num (.fin (3/2)), .num (.fin (7/4))]
      crit := .fin (1/4) } = true := by decide +kernel

/-- `test_stacked_fit_regression`, case 7 of 10 -/
example : Case.holds
    { kind := .regression, stackedFit := true
      xs := ⟨2, [[.fin 5, .fin 3], [.fin 3, .fin 4], [.fin 2, .nan], [.fin 2, .fin 4]]⟩
      y := [.num (.fin 1), .num (.fin 3), .num (.fin 2), .num (.fin 1)]
      xsTest := some ⟨2, [[.fin 1, .fin 2], [.nan, .fin 3]]⟩
      yTest := [.num (.fin 1), .num (.fin 2)]
      rules := [⟨[0], [1], [2]⟩, ⟨[1], [4], [5]⟩]
      weights := some (.series (given [("X_0 in [1, 2]", .fin 1), ("X_1 in [4, 5]", .fin 0)]))
      fails := false
      coverage := (3/4)
      act := [0, 1, 1, 1]
      stacked := [("X_0 in [1, 2]", [0, 0, 1, 1]), ("X_1 in [4, 5]", [0, 1, 0, 1])]
      covs := [("X_0 in [1, 2]", (1/2)), ("X_1 in [4, 5]", (1/2))]
      preds := [("X_0 in [1, 2]", .num (.fin (3/2))), ("X_1 in [4, 5]", .num (.fin 2))]
      crits := [("X_0 in [1, 2]", .fin (1/4)), ("X_1 in [4, 5]", .nan)]
      zscores := [("X_0 in [1, 2]", (42640143/100000000)), ("X_1 in [4, 5]", (42640143/100000000))]
      pred := [.num .nan, .num .nan, .num (.fin (3/2)), .num (.fin (3/2))]
      crit := .fin (1/4) } = true := by decide +kernel

/-- `test_stacked_fit_regression`, case 8 of 10 -/
example : Case.holds
    { kind := .regression, stackedFit := true
      xs := ⟨2, [[.fin 5, .fin 3], [.fin 3, .fin 4], [.fin 2, .nan], [.fin 2, .fin 4]]⟩
      y := [.num (.fin 1), .num (.fin 3), .num (.fin 2), .num (.fin 1)]
      xsTest := some ⟨2, [[.fin 1, .fin 2], [.nan, .fin 3]]⟩
      yTest := [.num (.fin 1), .num (.fin 2)]
      rules := [⟨[0], [1], [2]⟩, ⟨[1], [4], [5]⟩]
      weights := some (.series (given [("X_0 in [1, 2]", .fin 1)]))
      fails := false
      coverage := (3/4)
      act := [0, 1, 1, 1]
      stacked := [("X_0 in [1, 2]", [0, 0, 1, 1]), ("X_1 in [4, 5]", [0, 1, 0, 1])]
      covs := [("X_0 in [1, 2]", (1/2)), ("X_1 in [4, 5]", (1/2))]
      preds := [("X_0 in [1, 2]", .num (.fin (3/2))), ("X_1 in [4, 5]", .num (.fin 2))]
      crits := [("X_0 in [1, 2]", .fin (1/4)), ("X_1 in [4, 5]", .nan)]
      zscores := [("X_0 in [1, 2]", (42640143/100000000)), ("X_1 in [4, 5]", (42640143/100000000))]
      pred := [.num .nan, .num .nan, .num (.fin (3/2)), .num (.fin (3/2))]
      crit := .fin (1/4) } = true := by decide +kernel

/-- `test_stacked_fit_regression`, case 9 of 10 -/
example : Case.holds
    { kind := .regression, stackedFit := true
      xs := ⟨2, [[.fin 5, .fin 3], [.fin 3, .fin 4], [.fin 2, .nan], [.fin 2, .fin 4]]⟩
      y := [.num (.fin 1), .num (.fin 3), .num (.fin 2), .num (.fin 1)]
      xsTest := some ⟨2, [[.fin 1, .fin 2], [.nan, .fin 3]]⟩
      yTest := [.num (.fin 1), .num (.fin 2)]
      rules := [⟨[0], [1], [2]⟩, ⟨[1], [4], [5]⟩]
      weights := some (.series (given [("X_0 in [1, 2]", .fin (3/4)), ("X_1 in [4, 5]", .fin 1)]))
      fails := false
      coverage := (3/4)
      act := [0, 1, 1, 1]
      stacked := [("X_0 in [1, 2]", [0, 0, 1, 1]), ("X_1 in [4, 5]", [0, 1, 0, 1])]
      covs := [("X_0 in [1, 2]", (1/2)), ("X_1 in [4, 5]", (1/2))]
      preds := [("X_0 in [1, 2]", .num (.fin (3/2))), ("X_1 in [4, 5]", .num (.fin 2))]
      crits := [("X_0 in [1, 2]", .fin (1/4)), ("X_1 in [4, 5]", .nan)]
      zscores := [("X_0 in [1, 2]", (42640143/100000000)), ("X_1 in [4, 5]", (42640143/100000000))]
      pred := [.num .nan, .num (.fin 2), .num (.fin (3/2)), .num (.fin (892857143/500000000))]
      crit := .fin (1/4) } = true := by decide +kernel

/-- `test_stacked_fit_regression`, case 10 of 10 -/
example : Case.holds
    { kind := .regression, stackedFit := true
      xs := ⟨2, [[.fin 5, .fin 3], [.fin 3, .fin 4], [.fin 2, .nan], [.fin 2, .fin 4]]⟩
      y := [.num (.fin 1), .num (.fin 3), .num (.fin 2), .num (.fin 1)]
      xsTest := some ⟨2, [[.fin 1, .fin 2], [.nan, .fin 3]]⟩
      yTest := [.num (.fin 1), .num (.fin 2)]
      rules := [⟨[0], [1], [2]⟩, ⟨[1], [4], [5]⟩]
      weights := some (.attr "criterion")
      fails := false
      coverage := (3/4)
      act := [0, 1, 1, 1]
      stacked := [("X_0 in [1, 2]", [0, 0, 1, 1]), ("X_1 in [4, 5]", [0, 1, 0, 1])]
      covs := [("X_0 in [1, 2]", (1/2)), ("X_1 in [4, 5]", (1/2))]
      preds := [("X_0 in [1, 2]", .num (.fin (3/2))), ("X_1 in [4, 5]", .num (.fin 2))]
      crits := [("X_0 in [1, 2]", .fin (1/4)), ("X_1 in [4, 5]", .nan)]
      zscores := [("X_0 in [1, 2]", (42640143/100000000)), ("X_1 in [4, 5]", (42640143/100000000))]
      pred := [.num .nan, .num .nan, .num (.fin (3/2)), .num (.fin (3/2))]
      crit := .fin (1/4) } = true := by decide +kernel

/-- `test_stacked_fit_classification`, case 1 of 10 -/
example : Case.holds
    { kind := .classification, stackedFit := true
      xs := ⟨2, [[.fin 5, .fin 3], [.fin 5, .fin 4], [.fin 2, .nan], [.fin 2, .fin 4], [.fin 2, .fin 6]]⟩
      y := [.num (.fin 1), .num (.fin 3), .num (.fin 2), .num (.fin 2), .num (.fin 3)]
      xsTest := none
      yTest := [.num (.fin 1), .num (.fin 3), .num (.fin 2), .num (.fin 2), .num (.fin 3)]
      rules := [⟨[0], [1], [2]⟩, ⟨[1], [4], [6]⟩, ⟨[0, 1], [2, 4], [3, 5]⟩]
      weights := none
      fails := false
      coverage := (4/5)
      act := [0, 1, 1, 1, 1]
      stacked := [("X_0 in [1, 2]", [0, 0, 1, 1, 1]), ("X_1 in [4, 6]", [0, 1, 0, 1, 1]), ("X_0 in [2, 3] AND X_1 in [4, 5]", [0, 0, 0, 1, 0])]
      covs := [("X_0 in [1, 2]", (3/5)), ("X_1 in [4, 6]", (3/5)), ("X_0 in [2, 3] AND X_1 in [4, 5]", (1/5))]
      preds := [("X_0 in [1, 2]", .num (.fin 2)), ("X_1 in [4, 6]", .num (.fin 3)), ("X_0 in [2, 3] AND X_1 in [4, 5]", .num (.fin 2))]
      crits := [("X_0 in [1, 2]", .fin (2/3)), ("X_1 in [4, 6]", .fin (2/3)), ("X_0 in [2, 3] AND X_1 in [4, 5]", .fin 1)]
      zscores := []
      pred := [.num .nan, .num (.fin 3), .num (.fin 2), .num (.fin 2), .num .nan]
      crit := .fin 1 } = true := by decide +kernel

/-- `test_stacked_fit_classification`, case 2 of 10 -/
example : Case.holds
    { kind := .classification, stackedFit := true
      xs := ⟨2, [[.fin 5, .fin 3], [.fin 5, .fin 4], [.fin 2, .nan], [.fin 2, .fin 4], [.fin 2, .fin 6]]⟩
      y := [.num (.fin 1), .num (.fin 3), .num (.fin 2), .num (.fin 2), .num (.fin 3)]
      xsTest := none
      yTest := [.num (.fin 1), .num (.fin 3), .num (.fin 2), .num (.fin 2), .num (.fin 3)]
      rules := [⟨[0], [1], [2]⟩, ⟨[1], [4], [6]⟩, ⟨[0, 1], [2, 4], [3, 5]⟩]
      weights := some (.series (given [("X_0 in [1, 2]", .fin 1), ("X_1 in [4, 6]", .fin 0), ("X_0 in [2, 3] AND X_1 in [4, 5]", .fin 1)]))
      fails := false
      coverage := (4/5)
      act := [0, 1, 1, 1, 1]
      stacked := [("X_0 in [1, 2]", [0, 0, 1, 1, 1]), ("X_1 in [4, 6]", [0, 1, 0, 1, 1]), ("X_0 in [2, 3] AND X_1 in [4, 5]", [0, 0, 0, 1, 0])]
      covs := [("X_0 in [1, 2]", (3/5)), ("X_1 in [4, 6]", (3/5)), ("X_0 in [2, 3] AND X_1 in [4, 5]", (1/5))]
      preds := [("X_0 in [1, 2]", .num (.fin 2)), ("X_1 in [4, 6]", .num (.fin 3)), ("X_0 in [2, 3] AND X_1 in [4, 5]", .num (.fin 2))]
      crits := [("X_0 in [1, 2]", .fin (2/3)), ("X_1 in [4, 6]", .fin (2/3)), ("X_0 in [2, 3] AND X_1 in [4, 5]", .fin 1)]
      zscores := []
      pred := [.num .nan, .num .nan, .num (.fin 2), .num (.fin 2), .num (.fin 2)]
      crit := .fin (2/3) } = true := by decide +kernel

/-- `test_stacked_fit_classification`, case 3 of 10 -/
example : Case.holds
    { kind := .classification, stackedFit := true
      xs := ⟨2, [[.fin 5, .fin 3], [.fin 5, .fin 4], [.fin 2, .nan], [.fin 2, .fin 4], [.fin 2, .fin 6]]⟩
      y := [.num (.fin 1), .num (.fin 3), .num (.fin 2), .num (.fin 2), .num (.fin 3)]
      xsTest := none
      yTest := [.num (.fin 1), .num (.fin 3), .num (.fin 2), .num (.fin 2), .num (.fin 3)]
      rules := [⟨[0], [1], [2]⟩, ⟨[1], [4], [6]⟩, ⟨[0, 1], [2, 4], [3, 5]⟩]
      weights := some (.series (given [("X_1 in [4, 6]", .fin (1/2)), ("X_0 in [2, 3] AND X_1 in [4, 5]", .fin 1)]))
      fails := false
      coverage := (4/5)
      act := [0, 1, 1, 1, 1]
      stacked := [("X_0 in [1, 2]", [0, 0, 1, 1, 1]), ("X_1 in [4, 6]", [0, 1, 0, 1, 1]), ("X_0 in [2, 3] AND X_1 in [4, 5]", [0, 0, 0, 1, 0])]
      covs := [("X_0 in [1, 2]", (3/5)), ("X_1 in [4, 6]", (3/5)), ("X_0 in [2, 3] AND X_1 in [4, 5]", (1/5))]
      preds := [("X_0 in [1, 2]", .num (.fin 2)), ("X_1 in [4, 6]", .num (.fin 3)), ("X_0 in [2, 3] AND X_1 in [4, 5]", .num (.fin 2))]
      crits := [("X_0 in [1, 2]", .fin (2/3)), ("X_1 in [4, 6]", .fin (2/3)), ("X_0 in [2, 3] AND X_1 in [4, 5]", .fin 1)]
      zscores := []
      pred := [.num .nan, .num (.fin 3), .num .nan, .num (.fin 2), .num (.fin 3)]
      crit := .fin 1 } = true := by decide +kernel

/-- `test_stacked_fit_classification`, case 4 of 10 -/
example : Case.holds
    { kind := .classification, stackedFit := true
      xs := ⟨2, [[.fin 5, .fin 3], [.fin 5, .fin 4], [.fin 2, .nan], [.fin 2, .fin 4], [.fin 2, .fin 6]]⟩
      y := [.num (.fin 1), .num (.fin 3), .num (.fin 2), .num (.fin 2), .num (.fin 3)]
      xsTest := none
      yTest := [.num (.fin 1), .num (.fin 3), .num (.fin 2), .num (.fin 2), .num (.fin 3)]
      rules := [⟨[0], [1], [2]⟩, ⟨[1], [4], [6]⟩, ⟨[0, 1], [2, 4], [3, 5]⟩]
      weights := some (.attr "criterion")
      fails := false
      coverage := (4/5)
      act := [0, 1, 1, 1, 1]
      stacked := [("X_0 in [1, 2]", [0, 0, 1, 1, 1]), ("X_1 in [4, 6]", [0, 1, 0, 1, 1]), ("X_0 in [2, 3] AND X_1 in [4, 5]", [0, 0, 0, 1, 0])]
      covs := [("X_0 in [1, 2]", (3/5)), ("X_1 in [4, 6]", (3/5)), ("X_0 in [2, 3] AND X_1 in [4, 5]", (1/5))]
      preds := [("X_0 in [1, 2]", .num (.fin 2)), ("X_1 in [4, 6]", .num (.fin 3)), ("X_0 in [2, 3] AND X_1 in [4, 5]", .num (.fin 2))]
      crits := [("X_0 in [1, 2]", .fin (2/3)), ("X_1 in [4, 6]", .fin (2/3)), ("X_0 in [2, 3] AND X_1 in [4, 5]", .fin 1)]
      zscores := []
      pred := [.num .nan, .num (.fin 3), .num (.fin 2), .num (.fin 2), .num .nan]
      crit := .fin 1 } = true := by decide +kernel

/-- `test_stacked_fit_classification`, case 5 of 10 -/
example : Case.holds
    { kind := .classification, stackedFit := true
      xs := ⟨2, [[.fin 5, .fin 3], [.fin 5, .fin 4], [.fin 2, .nan], [.fin 2, .fin 4], [.fin 2, .fin 6]]⟩
      y := [.text "a", .text "c", .text "b", .text "b", .text "c"]
      xsTest := none
      yTest := [.text "a", .text "c", .text "b", .text "b", .text "c"]
      rules := [⟨[0], [1], [2]⟩, ⟨[1], [4], [6]⟩, ⟨[0, 1], [2, 4], [3, 5]⟩]
      weights := some (.attr "criterion")
      fails := false
      coverage := (4/5)
      act := [0, 1, 1, 1, 1]
      stacked := [("X_0 in [1, 2]", [0, 0, 1, 1, 1]), ("X_1 in [4, 6]", [0, 1, 0, 1, 1]), ("X_0 in [2, 3] AND X_1 in [4, 5]", [0, 0, 0, 1, 0])]
      covs := [("X_0 in [1, 2]", (3/5)), ("X_1 in [4, 6]", (3/5)), ("X_0 in [2, 3] AND X_1 in [4, 5]", (1/5))]
      preds := [("X_0 in [1, 2]", .text "b"), ("X_1 in [4, 6]", .text "c"), ("X_0 in [2, 3] AND X_1 in [4, 5]", .text "b")]
      crits := [("X_0 in [1, 2]", .fin (2/3)), ("X_1 in [4, 6]", .fin (2/3)), ("X_0 in [2, 3] AND X_1 in [4, 5]", .fin 1)]
      zscores := []
      pred := [.num .nan, .text "c", .text "b", .text "b", .num .nan]
      crit := .fin 1 } = true := by decide +kernel

/-- `test_stacked_fit_classification`, case 6 of 10 -/
example : Case.holds
    { kind := .classification, stackedFit := true
      xs := ⟨2, [[.fin 5, .fin 3], [.fin 5, .fin 4], [.fin 2, .nan], [.fin 2, .fin 4], [.fin 2, .fin 6]]⟩
      y := [.num (.fin 1), .num (.fin 3), .num (.fin 2), .num (.fin 2), .num (.fin 3)]
      xsTest := some ⟨2, [[.fin 1, .fin 2], [.nan, .fin 3]]⟩
      yTest := [.num (.fin 1), .num (.fin 2)]
      rules := [⟨[0], [1], [2]⟩, ⟨[1], [4], [6]⟩, ⟨[0, 1], [2, 4], [3, 5]⟩]
      weights := none
      fails := false
      coverage := (4/5)
      act := [0, 1, 1, 1, 1]
      stacked := [("X_0 in [1, 2]", [0, 0, 1, 1, 1]), ("X_1 in [4, 6]", [0, 1, 0, 1, 1]), ("X_0 in [2, 3] AND X_1 in [4, 5]", [0, 0, 0, 1, 0])]
      covs := [("X_0 in [1, 2]", (3/5)), ("X_1 in [4, 6]", (3/5)), ("X_0 in [2, 3] AND X_1 in [4, 5]", (1/5))]
      preds := [("X_0 in [1, 2]", .num (.fin 2)), ("X_1 in [4, 6]", .num (.fin 3)), ("X_0 in [2, 3] AND X_1 in [4, 5]", .num (.fin 2))]
      crits := [("X_0 in [1, 2]", .fin 0), ("X_1 in [4, 6]", .nan), ("X_0 in [2, 3] AND X_1 in [4, 5]", .nan)]
      zscores := []
      pred := [.num .nan, .num (.fin 3), .num (.fin 2), .num (.fin 2), .num .nan]
      crit := .fin 0 } = true := by decide +kernel

/-- `test_stacked_fit_classification`, case 7 of 10 -/
example : Case.holds
    { kind := .classification, stackedFit := true
      xs := ⟨2, [[.fin 5, .fin 3], [.fin 5, .fin 4], [.fin 2, .nan], [.fin 2, .fin 4], [.fin 2, .fin 6]]⟩
      y := [.num (.fin 1), .num (.fin 3), .num (.fin 2), .num (.fin 2), .num (.fin 3)]
      xsTest := some ⟨2, [[.fin 1, .fin 2], [.nan, .fin 3]]⟩
      yTest := [.num (.fin 1), .num (.fin 2)]
      rules := [⟨[0], [1], [2]⟩, ⟨[1], [4], [6]⟩, ⟨[0, 1], [2, 4], [3, 5]⟩]
      weights := some (.series (given [("X_0 in [1, 2]", .fin 1), ("X_1 in [4, 6]", .fin 0), ("X_0 in [2, 3] AND X_1 in [4, 5]", .fin 1)]))
      fails := false
      coverage := (4/5)
      act := [0, 1, 1, 1, 1]
      stacked := [("X_0 in [1, 2]", [0, 0, 1, 1, 1]), ("X_1 in [4, 6]", [0, 1, 0, 1, 1]), ("X_0 in [2, 3] AND X_1 in [4, 5]", [0, 0, 0, 1, 0])]
      covs := [("X_0 in [1, 2]", (3/5)), ("X_1 in [4, 6]", (3/5)), ("X_0 in [2, 3] AND X_1 in [4, 5]", (1/5))]
      preds := [("X_0 in [1, 2]", .num (.fin 2)), ("X_1 in [4, 6]", .num (.fin 3)), ("X_0 in [2, 3] AND X_1 in [4, 5]", .num (.fin 2))]
      crits := [("X_0 in [1, 2]", .fin 0), ("X_1 in [4, 6]", .nan), ("X_0 in [2, 3] AND X_1 in [4, 5]", .nan)]
      zscores := []
      pred := [.num .nan, .num .nan, .num (.fin 2), .num (.fin 2), .num (.fin 2)]
      crit := .fin 0 } = true := by decide +kernel

/-- `test_stacked_fit_classification`, case 8 of 10 -/
example : Case.holds
    { kind := .classification, stackedFit := true
      xs := ⟨2, [[.fin 5, .fin 3], [.fin 5, .fin 4], [.fin 2, .nan], [.fin 2, .fin 4], [.fin 2, .fin 6]]⟩
      y := [.num (.fin 1), .num (.fin 3), .num (.fin 2), .num (.fin 2), .num (.fin 3)]
      xsTest := some ⟨2, [[.fin 1, .fin 2], [.nan, .fin 3]]⟩
      yTest := [.num (.fin 1), .num (.fin 2)]
      rules := [⟨[0], [1], [2]⟩, ⟨[1], [4], [6]⟩, ⟨[0, 1], [2, 4], [3, 5]⟩]
      weights := some (.series (given [("X_1 in [4, 6]", .fin (1/2)), ("X_0 in [2, 3] AND X_1 in [4, 5]", .fin 1)]))
      fails := true
      coverage := (4/5)
      act := [0, 1, 1, 1, 1]
      stacked := [("X_0 in [1, 2]", [0, 0, 1, 1, 1]), ("X_1 in [4, 6]", [0, 1, 0, 1, 1]), ("X_0 in [2, 3] AND X_1 in [4, 5]", [0, 0, 0, 1, 0])]
      covs := [("X_0 in [1, 2]", (3/5)), ("X_1 in [4, 6]", (3/5)), ("X_0 in [2, 3] AND X_1 in [4, 5]", (1/5))]
      preds := [("X_0 in [1, 2]", .num (.fin 2)), ("X_1 in [4, 6]", .num (.fin 3)), ("X_0 in [2, 3] AND X_1 in [4, 5]", .num (.fin 2))]
      crits := [("X_0 in [1, 2]", .fin 0), ("X_1 in [4, 6]", .nan), ("X_0 in [2, 3] AND X_1 in [4, 5]", .nan)]
      zscores := []
      pred := []
      crit := .nan } = true := by decide +kernel

/-- `test_stacked_fit_classification`, case 9 of 10 -/
example : Case.holds
    { kind := .classification, stackedFit := true
      xs := ⟨2, [[.fin 5, .fin 3], [.fin 5, .fin 4], [.fin 2, .nan], [.fin 2, .fin 4], [.fin 2, .fin 6]]⟩
      y := [.num (.fin 1), .num (.fin 3), .num (.fin 2), .num (.fin 2), .num (.fin 3)]
      xsTest := some ⟨2, [[.fin 1, .fin 2], [.nan, .fin 3]]⟩
      yTest := [.num (.fin 1), .num (.fin 2)]
      rules := [⟨[0], [1], [2]⟩, ⟨[1], [4], [6]⟩, ⟨[0, 1], [2, 4], [3, 5]⟩]
      weights := some (.attr "criterion")
      fails := true
      coverage := (4/5)
      act := [0, 1, 1, 1, 1]
      stacked := [("X_0 in [1, 2]", [0, 0, 1, 1, 1]), ("X_1 in [4, 6]", [0, 1, 0, 1, 1]), ("X_0 in [2, 3] AND X_1 in [4, 5]", [0, 0, 0, 1, 0])]
      covs := [("X_0 in [1, 2]", (3/5)), ("X_1 in [4, 6]", (3/5)), ("X_0 in [2, 3] AND X_1 in [4, 5]", (1/5))]
      preds := [("X_0 in [1, 2]", .num (.fin 2)), ("X_1 in [4, 6]", .num (.fin 3)), ("X_0 in [2, 3] AND X_1 in [4, 5]", .num (.fin 2))]
      crits := [("X_0 in [1, 2]", .fin 0), ("X_1 in [4, 6]", .nan), ("X_0 in [2, 3] AND X_1 in [4, 5]", .nan)]
      zscores := []
      pred := []
      crit := .nan } = true := by decide +kernel

/-- `test_stacked_fit_classification`, case 10 of 10 -/
example : Case.holds
    { kind := .classification, stackedFit := true
      xs := ⟨2, [[.fin 5, .fin 3], [.fin 5, .fin 4], [.fin 2, .nan], [.fin 2, .fin 4], [.fin 2, .fin 6]]⟩
      y := [.text "a", .text "c", .text "b", .text "b", .text "c"]
      xsTest := some ⟨2, [[.fin 1, .fin 2], [.nan, .fin 3]]⟩
      yTest := [.text "a", .text "b"]
      rules := [⟨[0], [1], [2]⟩, ⟨[1], [4], [6]⟩, ⟨[0, 1], [2, 4], [3, 5]⟩]
      weights := some (.attr "criterion")
      fails := true
      coverage := (4/5)
      act := [0, 1, 1, 1, 1]
      stacked := [("X_0 in [1, 2]", [0, 0, 1, 1, 1]), ("X_1 in [4, 6]", [0, 1, 0, 1, 1]), ("X_0 in [2, 3] AND X_1 in [4, 5]", [0, 0, 0, 1, 0])]
      covs := [("X_0 in [1, 2]", (3/5)), ("X_1 in [4, 6]", (3/5)), ("X_0 in [2, 3] AND X_1 in [4, 5]", (1/5))]
      preds := [("X_0 in [1, 2]", .text "b"), ("X_1 in [4, 6]", .text "c"), ("X_0 in [2, 3] AND X_1 in [4, 5]", .text "b")]
      crits := [("X_0 in [1, 2]", .fin 0), ("X_1 in [4, 6]", .nan), ("X_0 in [2, 3] AND X_1 in [4, 5]", .nan)]
      zscores := []
      pred := []
      crit := .nan } = true := by decide +kernel

/-! ## Thresholds -/

/-- `/repo/tests/unit/data/thresholds.json` -/
def limits : Thresholds.Limits := Thresholds.make
  (some [("coverage", [("min", .num (.fin (1 / 20)))]), ("prediction", [("max", .num (.fin 3)), ("arg", .str "abs")]),
    ("criterion", [("min", .num (.fin (3 / 10)))])])

/-- A case of `test_thresholds_fit`, `/repo/tests/unit/test_thresholds.py` lines 24-484: `fit` and `eval` without thresholds,
then both again with thresholds -/
structure Strict where
  kind : Kind
  stackedFit : Bool
  xs : Mat
  y : List Label
  rules : List Box
  coverage : Rat
  act : List Nat
  stacked : Vote.Columns Nat
  covs : List (String × Rat)
  preds : List (String × Label)
  crits : List (String × Num)
  stacked2 : Vote.Columns Nat
  covs2 : List (String × Rat)
  preds2 : List (String × Label)
  crits2 : List (String × Num)

/-- `fit`, then `eval` on the same points -/
def fitEval (R : RsEnv) (t : Strict) : Py RuleSet Unit := do
  let _ ← fit R t.y (some (.arr t.xs))
  let _ ← eval R t.y (some (.arr t.xs)) none t.kind

/-- The test -/
def Strict.holds (t : Strict) : Bool :=
  let R := rsEnv t.kind none t.stackedFit
  let R2 := rsEnv t.kind (some limits) t.stackedFit
  match t.rules.mapM (Box.member t.kind) with
  | .error _ => false
  | .ok rules =>
    match RuleSet.make { R with stackedFit := true } rules true true with
    | .error _ => false
    | .ok s =>
      match fitEval R t s with
      | (.error _, _) => false
      | (.ok _, s) =>
        s.rulesetCoverage == .num (.fin t.coverage) && s.available == some t.act && s.stacked == some t.stacked &&
        s.rules.all (fun m => ruleHolds R t.kind t.covs t.preds t.crits [] m.rule) &&
        match fitEval R2 t s with
        | (.error _, _) => false
        | (.ok _, s) =>
          s.stacked == some t.stacked2 && s.rules.all (fun m => ruleHolds R t.kind t.covs2 t.preds2 t.crits2 [] m.rule)

/-- `test_thresholds_fit`, case 1 of 4 -/
example : Strict.holds
    { kind := .regression, stackedFit := true
      xs := ⟨2, [[.fin 5, .fin 3], [.fin 3, .fin 4], [.fin 2, .nan], [.fin 2, .fin 4]]⟩
      y := [.num (.fin (-4)), .num (.fin 3), .num (.fin 2), .num (.fin 1)]
      rules := [⟨[0], [1], [2]⟩, ⟨[1], [4], [5]⟩, ⟨[1], [0], [3]⟩, ⟨[0], [2], [5]⟩, ⟨[0, 1], [2, 0], [5, 3]⟩]
      coverage := 1
      act := [1, 1, 1, 1]
      stacked := [("X_0 in [1, 2]", [0, 0, 1, 1]), ("X_1 in [4, 5]", [0, 1, 0, 1]), ("X_1 in [0, 3]", [1, 0, 0, 0]), ("X_0 in [2, 5]", [1, 1, 1, 1]), ("X_0 in [2, 5] AND X_1 in [0, 3]", [1, 0, 0, 0])]
      covs := [("X_0 in [1, 2]", (1/2)), ("X_1 in [4, 5]", (1/2)), ("X_1 in [0, 3]", (1/4)), ("X_0 in [2, 5]", 1), ("X_0 in [2, 5] AND X_1 in [0, 3]", (1/4))]
      preds := [("X_0 in [1, 2]", .num (.fin (3/2))), ("X_1 in [4, 5]", .num (.fin 2)), ("X_1 in [0, 3]", .num (.fin (-4))), ("X_0 in [2, 5]", .num (.fin (1/2))), ("X_0 in [2, 5] AND X_1 in [0, 3]", .num (.fin (-4)))]
      crits := [("X_0 in [1, 2]", .fin (1/4)), ("X_1 in [4, 5]", .fin 1), ("X_1 in [0, 3]", .fin 0), ("X_0 in [2, 5]", .fin (29/4)), ("X_0 in [2, 5] AND X_1 in [0, 3]", .fin 0)]
      stacked2 := [("X_1 in [4, 5]", [0, 1, 0, 1]), ("X_0 in [2, 5]", [1, 1, 1, 1])]
      covs2 := [("X_1 in [4, 5]", (1/2)), ("X_0 in [2, 5]", 1)]
      preds2 := [("X_1 in [4, 5]", .num (.fin 2)), ("X_0 in [2, 5]", .num (.fin (1/2)))]
      crits2 := [("X_1 in [4, 5]", .fin 1), ("X_0 in [2, 5]", .fin (29/4))] } = true := by decide +kernel

/-- `test_thresholds_fit`, case 2 of 4 -/
example : Strict.holds
    { kind := .classification, stackedFit := true
      xs := ⟨2, [[.fin 5, .fin 3], [.fin 3, .fin 4], [.fin 2, .nan], [.fin 2, .fin 4]]⟩
      y := [.num (.fin (-4)), .num (.fin 3), .num (.fin 2), .num (.fin 1)]
      rules := [⟨[0], [1], [2]⟩, ⟨[1], [4], [5]⟩, ⟨[1], [0], [3]⟩, ⟨[0], [2], [5]⟩, ⟨[0, 1], [2, 0], [5, 3]⟩]
      coverage := 1
      act := [1, 1, 1, 1]
      stacked := [("X_0 in [1, 2]", [0, 0, 1, 1]), ("X_1 in [4, 5]", [0, 1, 0, 1]), ("X_1 in [0, 3]", [1, 0, 0, 0]), ("X_0 in [2, 5]", [1, 1, 1, 1]), ("X_0 in [2, 5] AND X_1 in [0, 3]", [1, 0, 0, 0])]
      covs := [("X_0 in [1, 2]", (1/2)), ("X_1 in [4, 5]", (1/2)), ("X_1 in [0, 3]", (1/4)), ("X_0 in [2, 5]", 1), ("X_0 in [2, 5] AND X_1 in [0, 3]", (1/4))]
      preds := [("X_0 in [1, 2]", .num (.fin 1)), ("X_1 in [4, 5]", .num (.fin 1)), ("X_1 in [0, 3]", .num (.fin (-4))), ("X_0 in [2, 5]", .num (.fin (-4))), ("X_0 in [2, 5] AND X_1 in [0, 3]", .num (.fin (-4)))]
      crits := [("X_0 in [1, 2]", .fin (1/2)), ("X_1 in [4, 5]", .fin (1/2)), ("X_1 in [0, 3]", .fin 1), ("X_0 in [2, 5]", .fin (1/4)), ("X_0 in [2, 5] AND X_1 in [0, 3]", .fin 1)]
      stacked2 := [("X_0 in [1, 2]", [0, 0, 1, 1]), ("X_1 in [4, 5]", [0, 1, 0, 1])]
      covs2 := [("X_0 in [1, 2]", (1/2)), ("X_1 in [4, 5]", (1/2))]
      preds2 := [("X_0 in [1, 2]", .num (.fin 1)), ("X_1 in [4, 5]", .num (.fin 1))]
      crits2 := [("X_0 in [1, 2]", .fin (1/2)), ("X_1 in [4, 5]", .fin (1/2))] } = true := by decide +kernel

/-- `test_thresholds_fit`, case 3 of 4 -/
example : Strict.holds
    { kind := .regression, stackedFit := false
      xs := ⟨2, [[.fin 5, .fin 3], [.fin 3, .fin 4], [.fin 2, .nan], [.fin 2, .fin 4]]⟩
      y := [.num (.fin (-4)), .num (.fin 3), .num (.fin 2), .num (.fin 1)]
      rules := [⟨[0], [1], [2]⟩, ⟨[1], [4], [5]⟩, ⟨[1], [0], [3]⟩, ⟨[0], [2], [5]⟩, ⟨[0, 1], [2, 0], [5, 3]⟩]
      coverage := 1
      act := [1, 1, 1, 1]
      stacked := [("X_0 in [1, 2]", [0, 0, 1, 1]), ("X_1 in [4, 5]", [0, 1, 0, 1]), ("X_1 in [0, 3]", [1, 0, 0, 0]), ("X_0 in [2, 5]", [1, 1, 1, 1]), ("X_0 in [2, 5] AND X_1 in [0, 3]", [1, 0, 0, 0])]
      covs := [("X_0 in [1, 2]", (1/2)), ("X_1 in [4, 5]", (1/2)), ("X_1 in [0, 3]", (1/4)), ("X_0 in [2, 5]", 1), ("X_0 in [2, 5] AND X_1 in [0, 3]", (1/4))]
      preds := [("X_0 in [1, 2]", .num (.fin (3/2))), ("X_1 in [4, 5]", .num (.fin 2)), ("X_1 in [0, 3]", .num (.fin (-4))), ("X_0 in [2, 5]", .num (.fin (1/2))), ("X_0 in [2, 5] AND X_1 in [0, 3]", .num (.fin (-4)))]
      crits := [("X_0 in [1, 2]", .fin (1/4)), ("X_1 in [4, 5]", .fin 1), ("X_1 in [0, 3]", .fin 0), ("X_0 in [2, 5]", .fin (29/4)), ("X_0 in [2, 5] AND X_1 in [0, 3]", .fin 0)]
      stacked2 := [("X_1 in [4, 5]", [0, 1, 0, 1]), ("X_0 in [2, 5]", [1, 1, 1, 1])]
      covs2 := [("X_1 in [4, 5]", (1/2)), ("X_0 in [2, 5]", 1)]
      preds2 := [("X_1 in [4, 5]", .num (.fin 2)), ("X_0 in [2, 5]", .num (.fin (1/2)))]
      crits2 := [("X_1 in [4, 5]", .fin 1), ("X_0 in [2, 5]", .fin (29/4))] } = true := by decide +kernel

/-- `test_thresholds_fit`, case 4 of 4 -/
example : Strict.holds
    { kind := .classification, stackedFit := false
      xs := ⟨2, [[.fin 5, .fin 3], [.fin 3, .fin 4], [.fin 2, .nan], [.fin 2, .fin 4]]⟩
      y := [.num (.fin (-4)), .num (.fin 3), .num (.fin 2), .num (.fin 1)]
      rules := [⟨[0], [1], [2]⟩, ⟨[1], [4], [5]⟩, ⟨[1], [0], [3]⟩, ⟨[0], [2], [5]⟩, ⟨[0, 1], [2, 0], [5, 3]⟩]
      coverage := 1
      act := [1, 1, 1, 1]
      stacked := [("X_0 in [1, 2]", [0, 0, 1, 1]), ("X_1 in [4, 5]", [0, 1, 0, 1]), ("X_1 in [0, 3]", [1, 0, 0, 0]), ("X_0 in [2, 5]", [1, 1, 1, 1]), ("X_0 in [2, 5] AND X_1 in [0, 3]", [1, 0, 0, 0])]
      covs := [("X_0 in [1, 2]", (1/2)), ("X_1 in [4, 5]", (1/2)), ("X_1 in [0, 3]", (1/4)), ("X_0 in [2, 5]", 1), ("X_0 in [2, 5] AND X_1 in [0, 3]", (1/4))]
      preds := [("X_0 in [1, 2]", .num (.fin 1)), ("X_1 in [4, 5]", .num (.fin 1)), ("X_1 in [0, 3]", .num (.fin (-4))), ("X_0 in [2, 5]", .num (.fin (-4))), ("X_0 in [2, 5] AND X_1 in [0, 3]", .num (.fin (-4)))]
      crits := [("X_0 in [1, 2]", .fin (1/2)), ("X_1 in [4, 5]", .fin (1/2)), ("X_1 in [0, 3]", .fin 1), ("X_0 in [2, 5]", .fin (1/4)), ("X_0 in [2, 5] AND X_1 in [0, 3]", .fin 1)]
      stacked2 := [("X_0 in [1, 2]", [0, 0, 1, 1]), ("X_1 in [4, 5]", [0, 1, 0, 1])]
      covs2 := [("X_0 in [1, 2]", (1/2)), ("X_1 in [4, 5]", (1/2))]
      preds2 := [("X_0 in [1, 2]", .num (.fin 1)), ("X_1 in [4, 5]", .num (.fin 1))]
      crits2 := [("X_0 in [1, 2]", .fin (1/2)), ("X_1 in [4, 5]", .fin (1/2))] } = true := by decide +kernel

/-- `test_not_fitted`, `/repo/tests/unit/test_ruleset.py` lines 1311-1320 -/
example : (match [(⟨[0, 1], [1, 1], [2, 3]⟩ : Box), ⟨[1, 2], [4, 4], [5, 4]⟩].mapM (Box.member .regression) with
    | .ok rules =>
      match RuleSet.make (rsEnv .regression none false) rules true false with
      | .ok s => (RuleSet.eval (rsEnv .regression none false) [.num (.fin 0), .num (.fin 1), .num (.fin 2)] none false none false {} s).1
      | .error e => .error e
    | .error e => .error e) = .error .valueError := by decide +kernel

/-! ## Activations -/

/-- `data_format` -/
def formatText : Activation.Data → String
  | .bits _ => "bitarray"
  | .int _ => "integer"
  | .text _ => "compressed_str"
  | .carr _ => "compressed_array"
  | .raw _ => "raw"
  | .file _ => "file"
  | .deleted _ => "deleted"

/-- Which attributes are not `None`, and the format: the lines `_nones`, `_entropy`, `_rel_entropy` and `data_format` of the
tables of `/repo/tests/unit/data` -/
structure Kept where
  nones : Bool
  entropy : Bool
  relEntropy : Bool
  format : String
  deriving DecidableEq

/-- What an activation keeps -/
def keptBy (a : Activation.Act) : Kept := ⟨a.nones.isSome, a.entropy.isSome, a.relEntropy.isSome, formatText a.data⟩

/-- What is given to the constructor -/
inductive With where
  | raw | integer | bitarray | compressed_str | compressed_array | file
  deriving DecidableEq

/-- The forms of one vector, `/repo/tests/unit/test_activation.py` lines 58-102 -/
structure Forms where
  vector : List Nat
  text : String
  compressed : List Nat
  bits : List Bool
  integer : Nat
  ones : List Nat
  /-- whether `sys.getsizeof` of the compressed form exceeds that of the other form -/
  bigger : Bool

/-- The argument -/
def Forms.input (f : Forms) : With → Activation.Input
  | .raw => .arr f.vector
  | .integer => .int f.integer
  | .bitarray => .bits f.bits
  | .compressed_str => .str f.text.toList
  | .compressed_array => .arr f.compressed
  | .file => .path (.user 1)

/-- The readers which the test calls, in its order, and what it compares -/
def readers (f : Forms) : Activation.Meth Bool := do
  let raw ← Activation.raw
  let bits ← Activation.asBitarray
  let int ← Activation.asInteger
  let text ← Activation.asCompressedStr
  let comp ← Activation.asCompressedArray
  let o ← Py.get
  let entropy ← Activation.entropy
  let rel ← Activation.relEntropy
  let coverage ← Activation.coverage
  let ones ← Activation.ones
  let nones ← Activation.nones
  pure (raw == f.vector && bits == some f.bits && int == some f.integer && text == f.text.toList && comp == f.compressed &&
    o.act.length == some f.vector.length && entropy == f.compressed.length &&
    rel.num * f.vector.length == f.compressed.length * rel.den && coverage.num * f.vector.length == f.ones.length * coverage.den &&
    ones == f.ones && nones == f.ones.length)

/-- A case of `test_init`, `/repo/tests/unit/test_activation.py` lines 56-167: the form given, `WILL_COMPARE`, `optimize`,
`STORE_RAW`, what the object keeps at first, and what it keeps after the readers were called. -/
structure Stored where
  with_ : With
  willCompare : Bool
  optimize : Bool
  storeRaw : Bool
  first : Kept
  after : Kept

/-- The world of a case -/
def Stored.world (t : Stored) (f : Forms) : Activation.World where
  dtype := .str
  willCompare := t.willCompare
  storeRaw := t.storeRaw
  files := fun p => if p = .user 1 then some f.vector else none
  sizes := fun _ => f.bigger
  nSizes := 0
  rands := fun n => n
  nRands := 0

/-- The test -/
def Stored.holds (f : Forms) (t : Stored) : Bool :=
  (t.with_ != .integer || (Activation.construct (f.input t.with_) t.optimize none false false (t.world f)).1 == .error .valueError) &&
  match Activation.construct (f.input t.with_) t.optimize (some f.vector.length) false false (t.world f) with
  | (.error _, _) => false
  | (.ok a, w) =>
    keptBy a == t.first &&
    match readers f ⟨a, { w with willCompare := false, storeRaw := false }⟩ with
    | (.ok true, o) => keptBy o.act == t.after
    | _ => false

/-- 276 points, the first and the last are activated -/
def twoOnes : Forms :=
  { vector := 1 :: (List.replicate 274 0 ++ [1]), text := "1,1,275,276", compressed := [1, 1, 275, 276]
    bits := true :: (List.replicate 274 false ++ [true])
    integer := 60708402882054033466233184588234965832575213720379360039119137804340758912662765569
    ones := [0, 275], bigger := false }

/-- `test_init`, `a1_activation_init_raw.csv`, the eight cases -/
example : ([
    ⟨.raw, true, true, true, ⟨true, false, false, "raw"⟩, ⟨true, true, true, "raw"⟩⟩,
    ⟨.raw, true, true, false, ⟨true, true, true, "compressed_str"⟩, ⟨true, true, true, "compressed_str"⟩⟩,
    ⟨.raw, true, false, true, ⟨true, false, false, "raw"⟩, ⟨true, true, true, "raw"⟩⟩,
    ⟨.raw, true, false, false, ⟨true, true, true, "compressed_str"⟩, ⟨true, true, true, "compressed_str"⟩⟩,
    ⟨.raw, false, true, true, ⟨true, false, false, "raw"⟩, ⟨true, true, true, "raw"⟩⟩,
    ⟨.raw, false, true, false, ⟨true, true, true, "compressed_str"⟩, ⟨true, true, true, "compressed_str"⟩⟩,
    ⟨.raw, false, false, true, ⟨true, false, false, "raw"⟩, ⟨true, true, true, "raw"⟩⟩,
    ⟨.raw, false, false, false, ⟨true, true, true, "compressed_str"⟩, ⟨true, true, true, "compressed_str"⟩⟩] : List Stored).all (Stored.holds twoOnes) = true := by decide +kernel

/-- `test_init`, `a1_activation_init_integer.csv`, the eight cases -/
example : ([
    ⟨.integer, true, true, true, ⟨true, true, true, "compressed_str"⟩, ⟨true, true, true, "compressed_str"⟩⟩,
    ⟨.integer, true, true, false, ⟨true, true, true, "compressed_str"⟩, ⟨true, true, true, "compressed_str"⟩⟩,
    ⟨.integer, true, false, true, ⟨false, false, false, "integer"⟩, ⟨true, true, true, "integer"⟩⟩,
    ⟨.integer, true, false, false, ⟨false, false, false, "integer"⟩, ⟨true, true, true, "integer"⟩⟩,
    ⟨.integer, false, true, true, ⟨true, true, true, "compressed_str"⟩, ⟨true, true, true, "compressed_str"⟩⟩,
    ⟨.integer, false, true, false, ⟨true, true, true, "compressed_str"⟩, ⟨true, true, true, "compressed_str"⟩⟩,
    ⟨.integer, false, false, true, ⟨true, false, false, "bitarray"⟩, ⟨true, true, true, "bitarray"⟩⟩,
    ⟨.integer, false, false, false, ⟨true, false, false, "bitarray"⟩, ⟨true, true, true, "bitarray"⟩⟩] : List Stored).all (Stored.holds twoOnes) = true := by decide +kernel

/-- `test_init`, `a1_activation_init_bitarray.csv`, the eight cases -/
example : ([
    ⟨.bitarray, true, true, true, ⟨true, true, true, "compressed_str"⟩, ⟨true, true, true, "compressed_str"⟩⟩,
    ⟨.bitarray, true, true, false, ⟨true, true, true, "compressed_str"⟩, ⟨true, true, true, "compressed_str"⟩⟩,
    ⟨.bitarray, true, false, true, ⟨true, false, false, "integer"⟩, ⟨true, true, true, "integer"⟩⟩,
    ⟨.bitarray, true, false, false, ⟨true, false, false, "integer"⟩, ⟨true, true, true, "integer"⟩⟩,
    ⟨.bitarray, false, true, true, ⟨true, true, true, "compressed_str"⟩, ⟨true, true, true, "compressed_str"⟩⟩,
    ⟨.bitarray, false, true, false, ⟨true, true, true, "compressed_str"⟩, ⟨true, true, true, "compressed_str"⟩⟩,
    ⟨.bitarray, false, false, true, ⟨true, false, false, "bitarray"⟩, ⟨true, true, true, "bitarray"⟩⟩,
    ⟨.bitarray, false, false, false, ⟨true, false, false, "bitarray"⟩, ⟨true, true, true, "bitarray"⟩⟩] : List Stored).all (Stored.holds twoOnes) = true := by decide +kernel

/-- `test_init`, `a1_activation_init_compressed_str.csv`, the eight cases -/
example : ([
    ⟨.compressed_str, true, true, true, ⟨false, true, true, "compressed_str"⟩, ⟨true, true, true, "compressed_str"⟩⟩,
    ⟨.compressed_str, true, true, false, ⟨false, true, true, "compressed_str"⟩, ⟨true, true, true, "compressed_str"⟩⟩,
    ⟨.compressed_str, true, false, true, ⟨false, true, true, "compressed_str"⟩, ⟨true, true, true, "compressed_str"⟩⟩,
    ⟨.compressed_str, true, false, false, ⟨false, true, true, "compressed_str"⟩, ⟨true, true, true, "compressed_str"⟩⟩,
    ⟨.compressed_str, false, true, true, ⟨false, true, true, "compressed_str"⟩, ⟨true, true, true, "compressed_str"⟩⟩,
    ⟨.compressed_str, false, true, false, ⟨false, true, true, "compressed_str"⟩, ⟨true, true, true, "compressed_str"⟩⟩,
    ⟨.compressed_str, false, false, true, ⟨false, true, true, "compressed_str"⟩, ⟨true, true, true, "compressed_str"⟩⟩,
    ⟨.compressed_str, false, false, false, ⟨false, true, true, "compressed_str"⟩, ⟨true, true, true, "compressed_str"⟩⟩] : List Stored).all (Stored.holds twoOnes) = true := by decide +kernel

/-- `test_init`, `a1_activation_init_compressed_array.csv`, the eight cases -/
example : ([
    ⟨.compressed_array, true, true, true, ⟨false, true, true, "compressed_array"⟩, ⟨true, true, true, "compressed_array"⟩⟩,
    ⟨.compressed_array, true, true, false, ⟨false, true, true, "compressed_array"⟩, ⟨true, true, true, "compressed_array"⟩⟩,
    ⟨.compressed_array, true, false, true, ⟨false, true, true, "compressed_array"⟩, ⟨true, true, true, "compressed_array"⟩⟩,
    ⟨.compressed_array, true, false, false, ⟨false, true, true, "compressed_array"⟩, ⟨true, true, true, "compressed_array"⟩⟩,
    ⟨.compressed_array, false, true, true, ⟨false, true, true, "compressed_array"⟩, ⟨true, true, true, "compressed_array"⟩⟩,
    ⟨.compressed_array, false, true, false, ⟨false, true, true, "compressed_array"⟩, ⟨true, true, true, "compressed_array"⟩⟩,
    ⟨.compressed_array, false, false, true, ⟨false, true, true, "compressed_array"⟩, ⟨true, true, true, "compressed_array"⟩⟩,
    ⟨.compressed_array, false, false, false, ⟨false, true, true, "compressed_array"⟩, ⟨true, true, true, "compressed_array"⟩⟩] : List Stored).all (Stored.holds twoOnes) = true := by decide +kernel

/-- `test_init`, `a1_activation_init_file.csv`, the eight cases -/
example : ([
    ⟨.file, true, true, true, ⟨true, false, false, "raw"⟩, ⟨true, true, true, "raw"⟩⟩,
    ⟨.file, true, true, false, ⟨true, true, true, "compressed_str"⟩, ⟨true, true, true, "compressed_str"⟩⟩,
    ⟨.file, true, false, true, ⟨true, false, false, "raw"⟩, ⟨true, true, true, "raw"⟩⟩,
    ⟨.file, true, false, false, ⟨true, true, true, "compressed_str"⟩, ⟨true, true, true, "compressed_str"⟩⟩,
    ⟨.file, false, true, true, ⟨true, false, false, "raw"⟩, ⟨true, true, true, "raw"⟩⟩,
    ⟨.file, false, true, false, ⟨true, true, true, "compressed_str"⟩, ⟨true, true, true, "compressed_str"⟩⟩,
    ⟨.file, false, false, true, ⟨true, false, false, "raw"⟩, ⟨true, true, true, "raw"⟩⟩,
    ⟨.file, false, false, false, ⟨true, true, true, "compressed_str"⟩, ⟨true, true, true, "compressed_str"⟩⟩] : List Stored).all (Stored.holds twoOnes) = true := by decide +kernel

/-- 16 points, every second one is activated -/
def alternating : Forms :=
  { vector := [0, 1, 0, 1, 0, 1, 0, 1, 0, 1, 0, 1, 0, 1, 0, 1], text := "0,1,2,3,4,5,6,7,8,9,10,11,12,13,14,15,16", compressed := [0, 1, 2, 3, 4, 5, 6, 7, 8, 9, 10, 11, 12, 13, 14, 15, 16]
    bits := [false, true, false, true, false, true, false, true, false, true, false, true, false, true, false, true]
    integer := 21845
    ones := [1, 3, 5, 7, 9, 11, 13, 15], bigger := true }

/-- `test_init`, `a2_activation_init_raw.csv`, the eight cases -/
example : ([
    ⟨.raw, true, true, true, ⟨true, false, false, "raw"⟩, ⟨true, true, true, "raw"⟩⟩,
    ⟨.raw, true, true, false, ⟨true, true, true, "integer"⟩, ⟨true, true, true, "integer"⟩⟩,
    ⟨.raw, true, false, true, ⟨true, false, false, "raw"⟩, ⟨true, true, true, "raw"⟩⟩,
    ⟨.raw, true, false, false, ⟨true, true, true, "integer"⟩, ⟨true, true, true, "integer"⟩⟩,
    ⟨.raw, false, true, true, ⟨true, false, false, "raw"⟩, ⟨true, true, true, "raw"⟩⟩,
    ⟨.raw, false, true, false, ⟨true, true, true, "bitarray"⟩, ⟨true, true, true, "bitarray"⟩⟩,
    ⟨.raw, false, false, true, ⟨true, false, false, "raw"⟩, ⟨true, true, true, "raw"⟩⟩,
    ⟨.raw, false, false, false, ⟨true, true, true, "bitarray"⟩, ⟨true, true, true, "bitarray"⟩⟩] : List Stored).all (Stored.holds alternating) = true := by decide +kernel

/-- `test_init`, `a2_activation_init_integer.csv`, the eight cases -/
example : ([
    ⟨.integer, true, true, true, ⟨true, true, true, "integer"⟩, ⟨true, true, true, "integer"⟩⟩,
    ⟨.integer, true, true, false, ⟨true, true, true, "integer"⟩, ⟨true, true, true, "integer"⟩⟩,
    ⟨.integer, true, false, true, ⟨false, false, false, "integer"⟩, ⟨true, true, true, "integer"⟩⟩,
    ⟨.integer, true, false, false, ⟨false, false, false, "integer"⟩, ⟨true, true, true, "integer"⟩⟩,
    ⟨.integer, false, true, true, ⟨true, true, true, "bitarray"⟩, ⟨true, true, true, "bitarray"⟩⟩,
    ⟨.integer, false, true, false, ⟨true, true, true, "bitarray"⟩, ⟨true, true, true, "bitarray"⟩⟩,
    ⟨.integer, false, false, true, ⟨true, false, false, "bitarray"⟩, ⟨true, true, true, "bitarray"⟩⟩,
    ⟨.integer, false, false, false, ⟨true, false, false, "bitarray"⟩, ⟨true, true, true, "bitarray"⟩⟩] : List Stored).all (Stored.holds alternating) = true := by decide +kernel

/-- `test_init`, `a2_activation_init_bitarray.csv`, the eight cases -/
example : ([
    ⟨.bitarray, true, true, true, ⟨true, true, true, "integer"⟩, ⟨true, true, true, "integer"⟩⟩,
    ⟨.bitarray, true, true, false, ⟨true, true, true, "integer"⟩, ⟨true, true, true, "integer"⟩⟩,
    ⟨.bitarray, true, false, true, ⟨true, false, false, "integer"⟩, ⟨true, true, true, "integer"⟩⟩,
    ⟨.bitarray, true, false, false, ⟨true, false, false, "integer"⟩, ⟨true, true, true, "integer"⟩⟩,
    ⟨.bitarray, false, true, true, ⟨true, true, true, "bitarray"⟩, ⟨true, true, true, "bitarray"⟩⟩,
    ⟨.bitarray, false, true, false, ⟨true, true, true, "bitarray"⟩, ⟨true, true, true, "bitarray"⟩⟩,
    ⟨.bitarray, false, false, true, ⟨true, false, false, "bitarray"⟩, ⟨true, true, true, "bitarray"⟩⟩,
    ⟨.bitarray, false, false, false, ⟨true, false, false, "bitarray"⟩, ⟨true, true, true, "bitarray"⟩⟩] : List Stored).all (Stored.holds alternating) = true := by decide +kernel

/-- `test_init`, `a2_activation_init_compressed_str.csv`, the eight cases -/
example : ([
    ⟨.compressed_str, true, true, true, ⟨false, true, true, "compressed_str"⟩, ⟨true, true, true, "compressed_str"⟩⟩,
    ⟨.compressed_str, true, true, false, ⟨false, true, true, "compressed_str"⟩, ⟨true, true, true, "compressed_str"⟩⟩,
    ⟨.compressed_str, true, false, true, ⟨false, true, true, "compressed_str"⟩, ⟨true, true, true, "compressed_str"⟩⟩,
    ⟨.compressed_str, true, false, false, ⟨false, true, true, "compressed_str"⟩, ⟨true, true, true, "compressed_str"⟩⟩,
    ⟨.compressed_str, false, true, true, ⟨false, true, true, "compressed_str"⟩, ⟨true, true, true, "compressed_str"⟩⟩,
    ⟨.compressed_str, false, true, false, ⟨false, true, true, "compressed_str"⟩, ⟨true, true, true, "compressed_str"⟩⟩,
    ⟨.compressed_str, false, false, true, ⟨false, true, true, "compressed_str"⟩, ⟨true, true, true, "compressed_str"⟩⟩,
    ⟨.compressed_str, false, false, false, ⟨false, true, true, "compressed_str"⟩, ⟨true, true, true, "compressed_str"⟩⟩] : List Stored).all (Stored.holds alternating) = true := by decide +kernel

/-- `test_init`, `a2_activation_init_compressed_array.csv`, the eight cases -/
example : ([
    ⟨.compressed_array, true, true, true, ⟨false, true, true, "compressed_array"⟩, ⟨true, true, true, "compressed_array"⟩⟩,
    ⟨.compressed_array, true, true, false, ⟨false, true, true, "compressed_array"⟩, ⟨true, true, true, "compressed_array"⟩⟩,
    ⟨.compressed_array, true, false, true, ⟨false, true, true, "compressed_array"⟩, ⟨true, true, true, "compressed_array"⟩⟩,
    ⟨.compressed_array, true, false, false, ⟨false, true, true, "compressed_array"⟩, ⟨true, true, true, "compressed_array"⟩⟩,
    ⟨.compressed_array, false, true, true, ⟨false, true, true, "compressed_array"⟩, ⟨true, true, true, "compressed_array"⟩⟩,
    ⟨.compressed_array, false, true, false, ⟨false, true, true, "compressed_array"⟩, ⟨true, true, true, "compressed_array"⟩⟩,
    ⟨.compressed_array, false, false, true, ⟨false, true, true, "compressed_array"⟩, ⟨true, true, true, "compressed_array"⟩⟩,
    ⟨.compressed_array, false, false, false, ⟨false, true, true, "compressed_array"⟩, ⟨true, true, true, "compressed_array"⟩⟩] : List Stored).all (Stored.holds alternating) = true := by decide +kernel

/-- `test_init`, `a2_activation_init_file.csv`, the eight cases -/
example : ([
    ⟨.file, true, true, true, ⟨true, false, false, "raw"⟩, ⟨true, true, true, "raw"⟩⟩,
    ⟨.file, true, true, false, ⟨true, true, true, "integer"⟩, ⟨true, true, true, "integer"⟩⟩,
    ⟨.file, true, false, true, ⟨true, false, false, "raw"⟩, ⟨true, true, true, "raw"⟩⟩,
    ⟨.file, true, false, false, ⟨true, true, true, "integer"⟩, ⟨true, true, true, "integer"⟩⟩,
    ⟨.file, false, true, true, ⟨true, false, false, "raw"⟩, ⟨true, true, true, "raw"⟩⟩,
    ⟨.file, false, true, false, ⟨true, true, true, "bitarray"⟩, ⟨true, true, true, "bitarray"⟩⟩,
    ⟨.file, false, false, true, ⟨true, false, false, "raw"⟩, ⟨true, true, true, "raw"⟩⟩,
    ⟨.file, false, false, false, ⟨true, true, true, "bitarray"⟩, ⟨true, true, true, "bitarray"⟩⟩] : List Stored).all (Stored.holds alternating) = true := by decide +kernel

/-! ## Conditions -/

/-- The arguments of `HyperrectangleCondition` -/
structure Given where
  indexes : Option (List V)
  names : Option (List V)
  bmins : List V
  bmaxs : List V

/-- The condition, with `SORT_ACCORDING_TO` -/
def Given.make (g : Given) (by_ : String) : Except Err Cond := Cond.init by_ g.indexes (some g.bmins) (some g.bmaxs) g.names false true

/-- `test_init`, `/repo/tests/unit/test_condition.py` lines 8-38: the exception, or the values given and `impossible` -/
def Given.inits (g : Given) (expected : Except Err Bool) : Bool :=
  match g.make "index", expected with
  | .error e, .error f => e == f
  | .ok c, .ok impossible =>
    (match g.indexes with
      | some l => c.indexes.map (·.map V.int) == some l
      | none => true) &&
    (match g.names with
      | some l => c.names.map (·.map V.str) == some l
      | none => true) &&
    c.bmins == g.bmins.mapM V.num? && c.bmaxs == g.bmaxs.mapM V.num? && c.impossible == impossible
  | _, _ => false

/-- The four lists of a condition -/
def lists (c : Cond) : Option (List Int × List String × List Num × List Num) :=
  match c.indexes, c.names, c.bmins, c.bmaxs with
  | some i, some n, some lo, some hi => some (i, n, lo, hi)
  | _, _, _, _ => none

/-- `test_sort`, lines 41-60 -/
def Given.sorts (g : Given) (by_ : String) (indexes : List Int) (names : List String) (bmins bmaxs : List Num) : Bool :=
  match g.make by_ with
  | .ok c => lists c == some (indexes, names, bmins, bmaxs)
  | .error _ => false

/-- `test_evaluate`, lines 63-121, without the last case, which gives a list -/
def Given.evaluates (g : Given) (xs : Xs) (expected : Except Err (List Nat)) : Bool :=
  match g.make "index" with
  | .ok c => Rule.evaluate c xs == expected
  | .error _ => false

/-- `test_and`, lines 124-170: both conditions are compared with `==` -/
def Given.meets (a b : Given) (expected : Except Err Given) : Bool :=
  match a.make "index", b.make "index" with
  | .ok c, .ok d =>
    match Cond.and "index" c d, expected with
    | .error e, .error f => e == f
    | .ok r, .ok g =>
      match g.make "index" with
      | .ok m => Cond.eq ConditionProps.sumHasher r m == .ok true
      | .error _ => false
    | _, _ => false
  | _, _ => false

/-- `test_set_attr`, lines 173-209: the condition of the test -/
def assigned : Cond :=
  { indexes := some [0, 1], bmins := some [.fin 0, .fin 1], bmaxs := some [.fin 1, .fin 2], names := some ["A", "B"], impossible := false }

/-- The assignment, the list kept afterwards, and `impossible` -/
def setsAs (m : Py Cond Unit) (kept : Cond → Bool) (impossible : Bool) : Bool :=
  match m assigned with
  | (.ok _, c) => kept c && c.impossible == impossible
  | (.error _, _) => false

example : (⟨(some [.int 0, .int 1]), none, [.int 0, .int 1], [.int 2, .int 3]⟩ : Given).inits (.ok false) = true := by decide +kernel
example : (⟨(some [.int 0, .int 1]), (some [.str "A", .str "B"]), [.int 0, .int 1], [.int 2, .int 3]⟩ : Given).inits (.ok false) = true := by decide +kernel
example : (⟨none, (some [.str "A", .str "B"]), [.int 0, .int 1], [.int 2, .int 3]⟩ : Given).inits (.ok false) = true := by decide +kernel
example : (⟨none, none, [.int 0, .int 1], [.int 2, .int 3]⟩ : Given).inits (.error .valueError) = true := by decide +kernel
example : (⟨(some [.int 0, .int 1]), none, [.int 0, .int 1, .int 2], [.int 2, .int 3]⟩ : Given).inits (.error .valueError) = true := by decide +kernel
example : (⟨(some [.int 0, .int 1]), none, [.int 0, .int 1], [.int 1, .int 2, .int 3]⟩ : Given).inits (.error .valueError) = true := by decide +kernel
example : (⟨(some [.int 0, .int 1]), (some [.str "A", .str "B", .str "C"]), [.int 1, .int 2], [.int 2, .int 3]⟩ : Given).inits (.error .valueError) = true := by decide +kernel
example : (⟨(some [.float (.fin (1/5)), .int 1]), (some [.str "A", .str "B"]), [.int 1, .int 2], [.int 2, .int 3]⟩ : Given).inits (.error .typeError) = true := by decide +kernel
example : (⟨(some [.int 0, .int 1]), (some [.int 1, .str "B"]), [.int 0, .int 1], [.int 2, .int 3]⟩ : Given).inits (.error .typeError) = true := by decide +kernel
example : (⟨(some [.int 0, .int 1]), (some [.str "A", .str "B"]), [.str "0", .int 1], [.int 2, .int 3]⟩ : Given).inits (.error .typeError) = true := by decide +kernel
example : (⟨(some [.int 0, .int 1]), (some [.str "A", .str "B"]), [.int 0, .int 1], [.int 2, .str "3"]⟩ : Given).inits (.error .typeError) = true := by decide +kernel
example : (⟨(some [.int 0, .int 1]), (some [.str "A", .str "B"]), [.int 2, .int 1], [.int 0, .int 3]⟩ : Given).inits (.ok true) = true := by decide +kernel
example : (⟨(some [.int 0, .int 0]), (some [.str "A", .str "B"]), [.int 2, .int 1], [.int 0, .int 3]⟩ : Given).inits (.error .duplicatedFeatures) = true := by decide +kernel
example : (⟨(some [.int 0, .int 1]), (some [.str "A", .str "A"]), [.int 2, .int 1], [.int 0, .int 3]⟩ : Given).inits (.error .duplicatedFeatures) = true := by decide +kernel
example : (⟨(some [.int 0, .int 1]), none, [.int 0, .int 1], [.int 2, .int 3]⟩ : Given).sorts "index" [0, 1] ["X_0", "X_1"] [.fin 0, .fin 1] [.fin 2, .fin 3] = true := by decide +kernel
example : (⟨(some [.int 1, .int 0]), none, [.int 1, .int 0], [.int 3, .int 2]⟩ : Given).sorts "index" [0, 1] ["X_0", "X_1"] [.fin 0, .fin 1] [.fin 2, .fin 3] = true := by decide +kernel
example : (⟨(some [.int 0, .int 1]), none, [.int 0, .int 1], [.int 2, .int 3]⟩ : Given).sorts "name" [0, 1] ["X_0", "X_1"] [.fin 0, .fin 1] [.fin 2, .fin 3] = true := by decide +kernel
example : (⟨(some [.int 1, .int 0]), none, [.int 1, .int 0], [.int 3, .int 2]⟩ : Given).sorts "name" [0, 1] ["X_0", "X_1"] [.fin 0, .fin 1] [.fin 2, .fin 3] = true := by decide +kernel
example : (⟨(some [.int 1, .int 0]), (some [.str "A", .str "B"]), [.int 1, .int 0], [.int 3, .int 2]⟩ : Given).sorts "name" [1, 0] ["A", "B"] [.fin 1, .fin 0] [.fin 3, .fin 2] = true := by decide +kernel
example : (⟨(some [.int 1, .int 0]), (some [.str "A", .str "B"]), [.int 1, .int 0], [.int 3, .int 2]⟩ : Given).sorts "index" [0, 1] ["B", "A"] [.fin 0, .fin 1] [.fin 2, .fin 3] = true := by decide +kernel
example : (⟨(some [.int 0]), none, [.int 1], [.int 2]⟩ : Given).evaluates (.arr ⟨2, [[.fin 1, .fin 3], [.fin 3, .fin 4], [.fin 2, .nan]]⟩) (.ok [1, 0, 1]) = true := by decide +kernel
example : (⟨(some [.int 1]), none, [.int 3], [.int 5]⟩ : Given).evaluates (.arr ⟨2, [[.fin 1, .fin 3], [.fin 3, .fin 4], [.fin 2, .nan]]⟩) (.ok [1, 1, 0]) = true := by decide +kernel
example : (⟨(some [.int 0, .int 1]), none, [.int 1, .int 3], [.int 2, .int 5]⟩ : Given).evaluates (.arr ⟨2, [[.fin 1, .fin 3], [.fin 3, .fin 4], [.fin 2, .nan]]⟩) (.ok [1, 0, 0]) = true := by decide +kernel
example : (⟨(some [.int 0, .int 3]), none, [.int 1, .int 3], [.int 2, .int 5]⟩ : Given).evaluates (.arr ⟨2, [[.fin 1, .fin 3], [.fin 3, .fin 4], [.fin 2, .nan]]⟩) (.error .indexError) = true := by decide +kernel
example : (⟨(some [.int 0, .int 3]), (some [.str "A", .str "B"]), [.int 1, .int 3], [.int 2, .int 5]⟩ : Given).evaluates (.frame ⟨["A", "B"], [[.fin 1, .fin 3], [.fin 3, .fin 4], [.fin 2, .nan]]⟩) (.ok [1, 0, 0]) = true := by decide +kernel
example : (⟨(some [.int 0, .int 3]), (some [.str "A", .str "C"]), [.int 1, .int 3], [.int 2, .int 5]⟩ : Given).evaluates (.frame ⟨["A", "B"], [[.fin 1, .fin 3], [.fin 3, .fin 4], [.fin 2, .nan]]⟩) (.error .indexError) = true := by decide +kernel
example : (⟨(some [.int 0]), (some [.str "b"]), [.int 1], [.int 3]⟩ : Given).meets (⟨(some [.int 1]), (some [.str "a"]), [.int 1], [.int 2]⟩ : Given) (.ok (⟨(some [.int 0, .int 1]), (some [.str "a", .str "b"]), [.int 1, .int 1], [.int 2, .int 3]⟩ : Given)) = true := by decide +kernel
example : (⟨(some [.int 0]), (some [.str "b"]), [.int 1], [.int 3]⟩ : Given).meets (⟨(some [.int 0]), (some [.str "a"]), [.int 1], [.int 2]⟩ : Given) (.error .indexError) = true := by decide +kernel
example : (⟨(some [.int 0, .int 1]), (some [.str "a", .str "b"]), [.int 0, .int 0], [.int 10, .int 2]⟩ : Given).meets (⟨(some [.int 0, .int 2]), (some [.str "a", .str "c"]), [.int 10, .int 1], [.int 20, .int 1]⟩ : Given) (.ok (⟨(some [.int 0, .int 1, .int 2]), (some [.str "a", .str "b", .str "c"]), [.int 10, .int 0, .int 1], [.int 10, .int 2, .int 1]⟩ : Given)) = true := by decide +kernel
example : (⟨(some [.int 0, .int 1]), (some [.str "a", .str "b"]), [.int 0, .int 0], [.int 10, .int 2]⟩ : Given).meets (⟨(some [.int 0, .int 1]), (some [.str "a", .str "c"]), [.int 20, .int 1], [.int 30, .int 1]⟩ : Given) (.error .indexError) = true := by decide +kernel
example : (⟨(some [.int 0, .int 1]), (some [.str "a", .str "b"]), [.int 0, .int 0], [.int 10, .int 2]⟩ : Given).meets (⟨(some [.int 1, .int 2]), (some [.str "a", .str "c"]), [.int 20, .int 1], [.int 30, .int 1]⟩ : Given) (.error .indexError) = true := by decide +kernel
example : (⟨(some [.int 0, .int 1]), (some [.str "a", .str "b"]), [.int 0, .int 0], [.int 10, .int 2]⟩ : Given).meets (⟨(some [.int 0, .int 2]), (some [.str "a", .str "c"]), [.int 20, .int 1], [.int 30, .int 1]⟩ : Given) (.ok (⟨(some [.int 0, .int 1, .int 2]), (some [.str "a", .str "b", .str "c"]), [.int 20, .int 0, .int 1], [.int 10, .int 2, .int 1]⟩ : Given)) = true := by decide +kernel
example : setsAs (Cond.setBmins (.list [.fin 0, .fin 1])) (fun c => c.bmins == some [.fin 0, .fin 1]) false = true := by decide +kernel
example : setsAs (Cond.setBmaxs (.list [.fin 0, .fin 1])) (fun c => c.bmaxs == some [.fin 0, .fin 1]) false = true := by decide +kernel
example : setsAs (Cond.setIndexes (.list [0, 2])) (fun c => c.indexes == some [0, 2]) false = true := by decide +kernel
example : setsAs (Cond.setNames (.list ["C", "D"])) (fun c => c.names == some ["C", "D"]) false = true := by decide +kernel
example : (Cond.setBmins (.list [.fin 0, .fin 1, .fin 2]) assigned).1 = .error .indexError := by decide +kernel
example : (Cond.setBmaxs (.list [.fin 0, .fin 1, .fin 2]) assigned).1 = .error .indexError := by decide +kernel
example : (Cond.setIndexes (.list [0, 1, 2]) assigned).1 = .error .indexError := by decide +kernel
example : (Cond.setNames (.list ["C", "D", "E"]) assigned).1 = .error .indexError := by decide +kernel
example : setsAs (Cond.setBmins (.list [.fin 2, .fin 1])) (fun c => c.bmins == some [.fin 2, .fin 1]) true = true := by decide +kernel
example : setsAs (Cond.setBmaxs (.list [.fin 1, .fin 0])) (fun c => c.bmaxs == some [.fin 1, .fin 0]) true = true := by decide +kernel

/-! ## Rules, activations and functions -/

/-- A fitted rule -/
def fitted (k : Kind) (g : Given) (y : List Label) (xs : Xs) : Except Err Rule := do
  let c ← g.make "index"
  match Rule.fit (env k none) y (some xs) false {} (Rule.make (env k none) c none).2 with
  | (.ok _, r) => .ok r
  | (.error e, _) => .error e

/-- `test_fit`, `/repo/tests/unit/test_rule.py` lines 47-97, for the two classes of rules which have figures -/
def fits (g : Given) (y : List Label) (xs : Xs) (act : List Nat) : Bool :=
  [Kind.regression, .classification].all fun k =>
    match fitted k g y xs with
    | .ok r => r.activation == some act
    | .error _ => false

/-- `test_regression_attributes`, lines 121-150 -/
def regresses (g : Given) (y : List Label) (xs : Xs) (cov pred : Rat) : Bool :=
  match fitted .regression g y xs with
  | .ok r => r.getCoverage == .ok (.num (.fin cov)) && r.getPrediction (env .regression none) == .ok (some (.num (.fin pred)))
  | .error _ => false

/-- `test_classification_attributes`, lines 153-187 -/
def classifies (g : Given) (y : List Label) (xs : Xs) (probs : List (Label × Rat)) (pred : Label) (crit : Rat) : Bool :=
  match fitted .classification g y xs with
  | .ok r =>
    match Rule.eval (env .classification none) y none false false {} r with
    | (.ok _, r) => r.prediction == .probs probs && r.getPrediction (env .classification none) == .ok (some pred) &&
        r.criterion == .num (.fin crit)
    | (.error _, _) => false
  | .error _ => false

/-- `test_and`, lines 190-217 -/
def ruleMeets (a b : Given) (y : List Label) (xs : Xs) (act : List Nat) : Bool :=
  match fitted .regression a y xs, fitted .regression b y xs with
  | .ok r, .ok t =>
    match Rule.and (env .regression none) "index" (fun _ _ => .ok ()) r t with
    | .ok m =>
      m.activation == some act &&
      match Rule.fit (env .regression none) y (some xs) false {} m with
      | (.ok _, m) => m.activation == some act
      | (.error _, _) => false
    | .error _ => false
  | _, _ => false

/-- `test_predict`, lines 220-338, for one class of rules.  Predictions of numbers are compared with six decimals, classes
exactly. -/
def predicts (k : Kind) (g : Given) (y : List Label) (xs : Xs) (xs2 : Option Xs) (expected : List Label) : Bool :=
  match fitted k g y xs with
  | .ok r =>
    match Rule.predict (env k none) r xs2 with
    | .ok l => l.length == expected.length && (l.zip expected).all fun p => nearLabel p.1 p.2
    | .error _ => false
  | .error _ => false

/-- `test_test`, lines 405-442 -/
def tested (k : Kind) (g : Given) (y : List Label) (xs : Xs) (yTest : List Label) (xsTest : Xs) (act : List Nat) (pred : Label) (crit : Rat) :
    Bool :=
  match fitted k g y xs with
  | .ok r =>
    match Rule.eval (env k none) yTest (some xsTest) false false { criterionMethod := some (methodOf k) } r with
    | (.ok _, r) => r.activation == some act && r.getPrediction (env k none) == .ok (some pred) && r.criterion == .num (.fin crit)
    | (.error _, _) => false
  | .error _ => false

/-- `test_not_fitted`, lines 445-449 -/
example : (match Cond.init "index" (some [.int 0, .int 1]) (some [.int 1, .int 1]) (some [.int 2, .int 3]) none false true with
    | .ok c => (Rule.eval (env .regression none) [.num (.fin 0), .num (.fin 1), .num (.fin 2)] none false false
        { criterionMethod := some "mse" } (Rule.make (env .regression none) c none).2).1
    | .error e => .error e) = .error .valueError := by decide +kernel

/-- Two activations, kept in memory -/
def twoActs (x y : List Nat) : Py Activation.Heap (Nat × Nat) := do
  let i ← Activation.new (.arr x) true none false false
  let j ← Activation.new (.arr y) true none false false
  pure (i, j)

/-- The first world: nothing on the disk -/
def emptyHeap : Activation.Heap where
  objs := []
  w := { dtype := .str, willCompare := false, storeRaw := false, files := fun _ => none, sizes := fun _ => true, nSizes := 0,
         rands := fun n => n, nRands := 0 }

/-- `test_diff`, `test_and`, `test_or`, `test_xor`, `test_sub`, `/repo/tests/unit/test_activation.py` lines 170-250 -/
def operates (op : Nat → Nat → Py Activation.Heap Nat) (x y expected : List Nat) : Bool :=
  match (do
    let (i, j) ← twoActs x y
    let k ← op i j
    Activation.onObj k Activation.raw : Py Activation.Heap (List Nat)) emptyHeap with
  | (.ok v, _) => v == expected
  | _ => false

/-- `test_correlation`, lines 253-279 -/
def correlates (x y : List Nat) (expected : Rat) : Bool :=
  match (do
    let (i, j) ← twoActs x y
    Activation.correlation i j : Py Activation.Heap Activation.Frac) emptyHeap with
  | (.ok f, _) => (f.num : Rat) / f.den == expected
  | _ => false

/-- `test_correlation`, `/repo/tests/unit/test_rule.py` lines 341-402; the rules have two features -/
def ruleCorrelates (x y : List Nat) (p q expected : Rat) : Bool :=
  match (do
    let (i, j) ← twoActs x y
    RuleHeap.correlation ⟨2, some i, .number (.fin p) false⟩ ⟨2, some j, .number (.fin q) false⟩ : Py Activation.Heap Num) emptyHeap with
  | (.ok f, _) => f == .fin expected
  | _ => false

/-- `test_thresholds`, `/repo/tests/unit/test_thresholds.py` lines 16-21, an object with one attribute -/
def passes (name : String) (x : Rat) : Except Err Bool :=
  (Thresholds.call (env .regression none).math (fun s => if s = name then .ok (.num (.fin x)) else .error .attributeError) name limits).1

example : passes "coverage" (3 / 100) = .ok false ∧ passes "coverage" (6 / 100) = .ok true ∧ passes "criterion" (-3 / 2) = .ok false ∧
    passes "criterion" (3 / 2) = .ok true := by decide +kernel

/-- The result of a function is this number, with six decimals -/
def gives (e : Except Err Num) (x : Num) : Bool :=
  match e with
  | .ok z => nearNum z x
  | .error _ => false

/-- The result of a function on a DataFrame -/
def givesAll (e : Except Err (RFun.Series Num)) (l : List (String × Num)) : Bool :=
  match e with
  | .ok s => s.length == l.length && (s.zip l).all fun p => p.1.1 == p.2.1 && nearNum p.1.2 p.2.2
  | .error _ => false

example : fits (⟨(some [.int 0]), none, [.int 1], [.int 2]⟩ : Given) [.num (.fin 1), .num (.fin 3), .num (.fin 2)] (.arr ⟨2, [[.fin 1, .fin 3], [.fin 3, .fin 4], [.fin 2, .nan]]⟩) [1, 0, 1] = true := by decide +kernel
example : fits (⟨(some [.int 1]), none, [.int 3], [.int 5]⟩ : Given) [.num (.fin 1), .num (.fin 3), .num (.fin 2)] (.arr ⟨2, [[.fin 1, .fin 3], [.fin 3, .fin 4], [.fin 2, .nan]]⟩) [1, 1, 0] = true := by decide +kernel
example : fits (⟨(some [.int 0, .int 1]), none, [.int 1, .int 3], [.int 2, .int 5]⟩ : Given) [.num (.fin 1), .num (.fin 3), .num (.fin 2)] (.arr ⟨2, [[.fin 1, .fin 3], [.fin 3, .fin 4], [.fin 2, .nan]]⟩) [1, 0, 0] = true := by decide +kernel
example : fits (⟨(some [.int 0, .int 1]), (some [.str "A", .str "B"]), [.int 1, .int 3], [.int 2, .int 5]⟩ : Given) [.num (.fin 1), .num (.fin 3), .num (.fin 2)] (.frame ⟨["A", "B"], [[.fin 1, .fin 3], [.fin 3, .fin 4], [.fin 2, .nan]]⟩) [1, 0, 0] = true := by decide +kernel
example : regresses (⟨(some [.int 0]), none, [.int 1], [.int 2]⟩ : Given) [.num (.fin 1), .num (.fin 3), .num (.fin 2)] (.arr ⟨2, [[.fin 1, .fin 3], [.fin 3, .fin 4], [.fin 2, .nan]]⟩) (2/3) (3/2) = true := by decide +kernel
example : regresses (⟨(some [.int 1]), none, [.int 3], [.int 5]⟩ : Given) [.num (.fin 1), .num (.fin 3), .num (.fin 2)] (.arr ⟨2, [[.fin 1, .fin 3], [.fin 3, .fin 4], [.fin 2, .nan]]⟩) (2/3) 2 = true := by decide +kernel
example : regresses (⟨(some [.int 0, .int 1]), none, [.int 1, .int 3], [.int 2, .int 5]⟩ : Given) [.num (.fin 1), .num (.fin 3), .num (.fin 2)] (.arr ⟨2, [[.fin 1, .fin 3], [.fin 3, .fin 4], [.fin 2, .nan]]⟩) (1/3) 1 = true := by decide +kernel
example : classifies (⟨(some [.int 0]), none, [.int 1], [.int 2]⟩ : Given) [.text "a", .text "b", .text "a"] (.arr ⟨2, [[.fin 1, .fin 3], [.fin 3, .fin 4], [.fin 2, .nan]]⟩) [(.text "a", 1)] (.text "a") 1 = true := by decide +kernel
example : classifies (⟨(some [.int 1]), none, [.int 4], [.int 5]⟩ : Given) [.text "a", .text "b", .text "a"] (.arr ⟨2, [[.fin 1, .fin 3], [.fin 3, .fin 4], [.fin 2, .nan]]⟩) [(.text "b", 1)] (.text "b") 1 = true := by decide +kernel
example : classifies (⟨(some [.int 0]), none, [.int 1], [.int 5]⟩ : Given) [.text "a", .text "b", .text "a"] (.arr ⟨2, [[.fin 1, .fin 3], [.fin 2, .fin 4], [.fin 5, .nan]]⟩) [(.text "a", (2/3)), (.text "b", (1/3))] (.text "a") (2/3) = true := by decide +kernel
example : ruleMeets (⟨(some [.int 0]), none, [.int 1], [.int 2]⟩ : Given) (⟨(some [.int 1]), none, [.int 3], [.int 5]⟩ : Given) [.num (.fin 1), .num (.fin 3), .num (.fin 2)] (.arr ⟨2, [[.fin 1, .fin 3], [.fin 3, .fin 4], [.fin 2, .nan]]⟩) [1, 0, 0] = true := by decide +kernel
example : predicts .regression (⟨(some [.int 0, .int 1]), none, [.int 1, .int 3], [.int 2, .int 5]⟩ : Given) [.num (.fin (3/2)), .num (.fin 3), .num (.fin 2)] (.arr ⟨2, [[.fin 1, .fin 3], [.fin 3, .fin 4], [.fin 2, .nan]]⟩) (some (.arr ⟨2, [[.fin 1, .fin 3], [.fin 0, .fin 4], [.fin 0, .fin 5], [.nan, .nan]]⟩)) [.num (.fin (3/2)), .num .nan, .num .nan, .num .nan] = true := by decide +kernel
example : predicts .classification (⟨(some [.int 0, .int 1]), none, [.int 1, .int 3], [.int 2, .int 5]⟩ : Given) [.num (.fin (3/2)), .num (.fin 3), .num (.fin 2)] (.arr ⟨2, [[.fin 1, .fin 3], [.fin 3, .fin 4], [.fin 2, .nan]]⟩) (some (.arr ⟨2, [[.fin 1, .fin 3], [.fin 0, .fin 4], [.fin 0, .fin 5], [.nan, .nan]]⟩)) [.num (.fin (3/2)), .num .nan, .num .nan, .num .nan] = true := by decide +kernel
example : predicts .regression (⟨(some [.int 0, .int 1]), none, [.int 1, .int 3], [.int 2, .int 5]⟩ : Given) [.num (.fin (3/2)), .num (.fin 3), .num (.fin 2)] (.arr ⟨2, [[.fin 1, .fin 3], [.fin 3, .fin 4], [.fin 2, .nan]]⟩) none [.num (.fin (3/2)), .num .nan, .num .nan] = true := by decide +kernel
example : predicts .classification (⟨(some [.int 0, .int 1]), none, [.int 1, .int 3], [.int 2, .int 5]⟩ : Given) [.num (.fin (3/2)), .num (.fin 3), .num (.fin 2)] (.arr ⟨2, [[.fin 1, .fin 3], [.fin 3, .fin 4], [.fin 2, .nan]]⟩) none [.num (.fin (3/2)), .num .nan, .num .nan] = true := by decide +kernel
example : predicts .regression (⟨(some [.int 0, .int 1]), (some [.str "A", .str "B"]), [.int 1, .int 3], [.int 2, .int 5]⟩ : Given) [.num (.fin (3/2)), .num (.fin 3), .num (.fin 2)] (.frame ⟨["A", "B"], [[.fin 1, .fin 3], [.fin 3, .fin 4], [.fin 2, .nan]]⟩) (some (.arr ⟨2, [[.fin 1, .fin 3], [.fin 0, .fin 4], [.fin 0, .fin 5], [.nan, .nan]]⟩)) [.num (.fin (3/2)), .num .nan, .num .nan, .num .nan] = true := by decide +kernel
example : predicts .classification (⟨(some [.int 0, .int 1]), (some [.str "A", .str "B"]), [.int 1, .int 3], [.int 2, .int 5]⟩ : Given) [.num (.fin (3/2)), .num (.fin 3), .num (.fin 2)] (.frame ⟨["A", "B"], [[.fin 1, .fin 3], [.fin 3, .fin 4], [.fin 2, .nan]]⟩) (some (.arr ⟨2, [[.fin 1, .fin 3], [.fin 0, .fin 4], [.fin 0, .fin 5], [.nan, .nan]]⟩)) [.num (.fin (3/2)), .num .nan, .num .nan, .num .nan] = true := by decide +kernel
example : predicts .regression (⟨(some [.int 0, .int 1]), (some [.str "A", .str "B"]), [.int 1, .int 3], [.int 2, .int 5]⟩ : Given) [.num (.fin (3/2)), .num (.fin 3), .num (.fin 2)] (.frame ⟨["A", "B"], [[.fin 1, .fin 3], [.fin 3, .fin 4], [.fin 2, .nan]]⟩) none [.num (.fin (3/2)), .num .nan, .num .nan] = true := by decide +kernel
example : predicts .classification (⟨(some [.int 0, .int 1]), (some [.str "A", .str "B"]), [.int 1, .int 3], [.int 2, .int 5]⟩ : Given) [.num (.fin (3/2)), .num (.fin 3), .num (.fin 2)] (.frame ⟨["A", "B"], [[.fin 1, .fin 3], [.fin 3, .fin 4], [.fin 2, .nan]]⟩) none [.num (.fin (3/2)), .num .nan, .num .nan] = true := by decide +kernel
example : predicts .regression (⟨(some [.int 0, .int 1]), (some [.str "A", .str "B"]), [.int 1, .int 3], [.int 2, .int 5]⟩ : Given) [.num (.fin (3/2)), .num (.fin 3), .num (.fin 2)] (.arr ⟨2, [[.fin 1, .fin 3], [.fin 3, .fin 4], [.fin 2, .nan]]⟩) (some (.frame ⟨["A", "B"], [[.fin 1, .fin 3], [.fin 0, .fin 4], [.fin 0, .fin 5], [.nan, .nan]]⟩)) [.num (.fin (3/2)), .num .nan, .num .nan, .num .nan] = true := by decide +kernel
example : predicts .classification (⟨(some [.int 0, .int 1]), (some [.str "A", .str "B"]), [.int 1, .int 3], [.int 2, .int 5]⟩ : Given) [.num (.fin (3/2)), .num (.fin 3), .num (.fin 2)] (.arr ⟨2, [[.fin 1, .fin 3], [.fin 3, .fin 4], [.fin 2, .nan]]⟩) (some (.frame ⟨["A", "B"], [[.fin 1, .fin 3], [.fin 0, .fin 4], [.fin 0, .fin 5], [.nan, .nan]]⟩)) [.num (.fin (3/2)), .num .nan, .num .nan, .num .nan] = true := by decide +kernel
example : predicts .regression (⟨(some [.int 0, .int 1]), (some [.str "A", .str "B"]), [.int 1, .int 3], [.int 2, .int 5]⟩ : Given) [.num (.fin (3/2)), .num (.fin 3), .num (.fin 2)] (.frame ⟨["A", "B"], [[.fin 1, .fin 3], [.fin 3, .fin 4], [.fin 2, .nan]]⟩) (some (.frame ⟨["A", "B"], [[.fin 1, .fin 3], [.fin 0, .fin 4], [.fin 0, .fin 5], [.nan, .nan]]⟩)) [.num (.fin (3/2)), .num .nan, .num .nan, .num .nan] = true := by decide +kernel
example : predicts .classification (⟨(some [.int 0, .int 1]), (some [.str "A", .str "B"]), [.int 1, .int 3], [.int 2, .int 5]⟩ : Given) [.num (.fin (3/2)), .num (.fin 3), .num (.fin 2)] (.frame ⟨["A", "B"], [[.fin 1, .fin 3], [.fin 3, .fin 4], [.fin 2, .nan]]⟩) (some (.frame ⟨["A", "B"], [[.fin 1, .fin 3], [.fin 0, .fin 4], [.fin 0, .fin 5], [.nan, .nan]]⟩)) [.num (.fin (3/2)), .num .nan, .num .nan, .num .nan] = true := by decide +kernel
example : predicts .regression (⟨(some [.int 1, .int 0]), none, [.int 1, .int 3], [.int 2, .int 5]⟩ : Given) [.num (.fin (3/2)), .num (.fin 3), .num (.fin 2)] (.arr ⟨2, [[.fin 3, .fin 1], [.fin 4, .fin 3], [.nan, .fin 2]]⟩) (some (.arr ⟨2, [[.fin 3, .fin 1], [.fin 4, .fin 0], [.fin 5, .fin 0], [.nan, .nan]]⟩)) [.num (.fin (3/2)), .num .nan, .num .nan, .num .nan] = true := by decide +kernel
example : predicts .classification (⟨(some [.int 1, .int 0]), none, [.int 1, .int 3], [.int 2, .int 5]⟩ : Given) [.num (.fin (3/2)), .num (.fin 3), .num (.fin 2)] (.arr ⟨2, [[.fin 3, .fin 1], [.fin 4, .fin 3], [.nan, .fin 2]]⟩) (some (.arr ⟨2, [[.fin 3, .fin 1], [.fin 4, .fin 0], [.fin 5, .fin 0], [.nan, .nan]]⟩)) [.num (.fin (3/2)), .num .nan, .num .nan, .num .nan] = true := by decide +kernel
example : predicts .regression (⟨(some [.int 1, .int 0]), (some [.str "A", .str "B"]), [.int 1, .int 3], [.int 2, .int 5]⟩ : Given) [.num (.fin (3/2)), .num (.fin 3), .num (.fin 2)] (.arr ⟨2, [[.fin 3, .fin 1], [.fin 4, .fin 3], [.nan, .fin 2]]⟩) (some (.arr ⟨2, [[.fin 3, .fin 1], [.fin 4, .fin 0], [.fin 5, .fin 0], [.nan, .nan]]⟩)) [.num (.fin (3/2)), .num .nan, .num .nan, .num .nan] = true := by decide +kernel
example : predicts .classification (⟨(some [.int 1, .int 0]), (some [.str "A", .str "B"]), [.int 1, .int 3], [.int 2, .int 5]⟩ : Given) [.num (.fin (3/2)), .num (.fin 3), .num (.fin 2)] (.arr ⟨2, [[.fin 3, .fin 1], [.fin 4, .fin 3], [.nan, .fin 2]]⟩) (some (.arr ⟨2, [[.fin 3, .fin 1], [.fin 4, .fin 0], [.fin 5, .fin 0], [.nan, .nan]]⟩)) [.num (.fin (3/2)), .num .nan, .num .nan, .num .nan] = true := by decide +kernel
example : predicts .regression (⟨(some [.int 0, .int 1]), (some [.str "B", .str "A"]), [.int 1, .int 3], [.int 2, .int 5]⟩ : Given) [.num (.fin (3/2)), .num (.fin 3), .num (.fin 2)] (.frame ⟨["A", "B"], [[.fin 3, .fin 1], [.fin 4, .fin 3], [.nan, .fin 2]]⟩) (some (.frame ⟨["A", "B"], [[.fin 3, .fin 1], [.fin 4, .fin 0], [.fin 5, .fin 0], [.nan, .nan]]⟩)) [.num (.fin (3/2)), .num .nan, .num .nan, .num .nan] = true := by decide +kernel
example : predicts .classification (⟨(some [.int 0, .int 1]), (some [.str "B", .str "A"]), [.int 1, .int 3], [.int 2, .int 5]⟩ : Given) [.num (.fin (3/2)), .num (.fin 3), .num (.fin 2)] (.frame ⟨["A", "B"], [[.fin 3, .fin 1], [.fin 4, .fin 3], [.nan, .fin 2]]⟩) (some (.frame ⟨["A", "B"], [[.fin 3, .fin 1], [.fin 4, .fin 0], [.fin 5, .fin 0], [.nan, .nan]]⟩)) [.num (.fin (3/2)), .num .nan, .num .nan, .num .nan] = true := by decide +kernel
example : predicts .classification (⟨(some [.int 0, .int 1]), (some [.str "B", .str "A"]), [.int 1, .int 3], [.int 2, .int 5]⟩ : Given) [.text "a", .text "b", .text "c"] (.frame ⟨["A", "B"], [[.fin 3, .fin 1], [.fin 4, .fin 3], [.nan, .fin 2]]⟩) (some (.frame ⟨["A", "B"], [[.fin 3, .fin 1], [.fin 4, .fin 0], [.fin 5, .fin 0], [.nan, .nan]]⟩)) [.text "a", .text "nan", .text "nan", .text "nan"] = true := by decide +kernel
example : ruleCorrelates [1, 0, 1] [1, 1, 0] (1/5) (3/10) (1/3) = true := by decide +kernel
example : ruleCorrelates [1, 0, 1] [1, 1, 0] (1/5) (-3/10) (-1/3) = true := by decide +kernel
example : ruleCorrelates [1, 0, 1] [1, 1, 0] (-1/5) (-3/10) (1/3) = true := by decide +kernel
example : ruleCorrelates [1, 0, 1] [1, 0, 0] (1/5) (3/10) (2/3) = true := by decide +kernel
example : ruleCorrelates [1, 0, 1] [1, 0, 0] (-1/5) (3/10) (-2/3) = true := by decide +kernel
example : ruleCorrelates [1, 0, 1] [1, 0, 0] (-1/5) (-3/10) (2/3) = true := by decide +kernel
example : ruleCorrelates [1, 0, 1] [1, 0, 1] (1/5) (3/10) 1 = true := by decide +kernel
example : ruleCorrelates [1, 0, 1] [0, 1, 0] (1/5) (3/10) 0 = true := by decide +kernel
example : tested .regression (⟨(some [.int 0]), none, [.int 0], [.int 1]⟩ : Given) [.num (.fin 1), .num (.fin 0), .num (.fin 2)] (.arr ⟨2, [[.fin 0, .fin 1], [.fin 2, .fin 3], [.fin 4, .fin 5]]⟩) [.num (.fin 1), .num (.fin 4), .num (.fin 5)] (.arr ⟨2, [[.fin 0, .fin 1], [.fin 0, .fin 1], [.fin 0, .fin 1]]⟩) [1, 0, 0] (.num (.fin 1)) (25/3) = true := by decide +kernel
example : tested .classification (⟨(some [.int 0]), none, [.int 0], [.int 1]⟩ : Given) [.num (.fin 1), .num (.fin 0), .num (.fin 2)] (.arr ⟨2, [[.fin 0, .fin 1], [.fin 2, .fin 3], [.fin 4, .fin 5]]⟩) [.num (.fin 1), .num (.fin 4), .num (.fin 5)] (.arr ⟨2, [[.fin 0, .fin 1], [.fin 0, .fin 1], [.fin 0, .fin 1]]⟩) [1, 0, 0] (.num (.fin 1)) (1/3) = true := by decide +kernel
example : operates Activation.sub [1, 0, 1] [1, 1, 0] [0, 0, 1] = true := by decide +kernel
example : operates (Activation.binop .and) [1, 0, 1] [1, 1, 0] [1, 0, 0] = true := by decide +kernel
example : operates (Activation.binop .or) [1, 0, 1] [1, 1, 0] [1, 1, 1] = true := by decide +kernel
example : operates (Activation.binop .xor) [1, 0, 1] [1, 1, 0] [0, 1, 1] = true := by decide +kernel
example : operates Activation.sub [1, 0, 1] [1, 1, 0] [0, 0, 1] = true := by decide +kernel
example : correlates [1, 0, 1] [1, 1, 0] (1/3) = true := by decide +kernel
example : correlates [1, 0, 1] [1, 0, 0] (2/3) = true := by decide +kernel
example : correlates [1, 0, 1] [1, 0, 1] 1 = true := by decide +kernel
example : correlates [1, 0, 1] [0, 1, 0] 0 = true := by decide +kernel
example : gives (RFun.conditionalMean [1, 0, 1] [.fin (-1), .fin 0, .fin 2]) (.fin (1/2)) = true := by decide +kernel
example : gives (RFun.conditionalMean [0, 0, 0] [.fin (-1), .fin 0, .fin 2]) (.nan) = true := by decide +kernel
example : givesAll (RFun.conditionalMeans [("0", [1, 0, 1]), ("1", [1, 1, 0]), ("2", [0, 0, 0])] [.fin (-1), .fin 0, .fin 2]) [("0", .fin (1/2)), ("1", .fin (-1/2)), ("2", .nan)] = true := by decide +kernel
example : givesAll (RFun.conditionalMeans [("chien", [1, 0, 1]), ("chat", [1, 1, 0]), ("cheval", [0, 0, 0])] [.fin (-1), .fin 0, .fin 2]) [("chien", .fin (1/2)), ("chat", .fin (-1/2)), ("cheval", .nan)] = true := by decide +kernel
example : gives ((RFun.conditionalVar [1, 0, 1] [.fin (-1), .fin 0, .fin 2]).map tenDecimals) (.fin (265165043/125000000)) = true := by decide +kernel
example : gives ((RFun.conditionalVar [0, 0, 0] [.fin (-1), .fin 0, .fin 2]).map tenDecimals) (.nan) = true := by decide +kernel
example : givesAll ((RFun.conditionalVars [("0", [1, 0, 1]), ("1", [1, 1, 0]), ("2", [0, 0, 0])] [.num (.fin (-1)), .num (.fin 0), .num (.fin 2)]).map fun l => l.map fun p => (p.1, tenDecimals p.2)) [("0", .fin (265165043/125000000)), ("1", .fin (1767766953/2500000000)), ("2", .nan)] = true := by decide +kernel
example : givesAll ((RFun.conditionalVars [("chien", [1, 0, 1]), ("chat", [1, 1, 0]), ("cheval", [0, 0, 0])] [.num (.fin (-1)), .num (.fin 0), .num (.fin 2)]).map fun l => l.map fun p => (p.1, tenDecimals p.2)) [("chien", .fin (265165043/125000000)), ("chat", .fin (1767766953/2500000000)), ("cheval", .nan)] = true := by decide +kernel
example : RFun.classProbabilities [1, 0, 1, 1, 1] [.num (.fin 0), .num (.fin 3), .num (.fin 2), .num (.fin 100), .num (.fin 2)] = .ok [(.num (.fin 0), (1/4)), (.num (.fin 2), (1/2)), (.num (.fin 100), (1/4))] := by decide +kernel
example : gives (RFun.mse [.fin 2, .nan, .fin 2] [.fin (-1), .fin 0, .fin 2]) (.fin (9/2)) = true := by decide +kernel
example : gives (RFun.mse [.nan, .nan, .nan] [.fin (-1), .fin 0, .fin 2]) (.nan) = true := by decide +kernel
example : givesAll (RFun.regressionCriterions "mse" [("0", [.fin 2, .nan, .fin 2]), ("1", [.fin (-1), .fin (-1), .nan]), ("2", [.nan, .nan, .nan])] [.fin (-1), .fin 0, .fin 2]) [("0", .fin (9/2)), ("1", .fin (1/2)), ("2", .nan)] = true := by decide +kernel
example : givesAll (RFun.regressionCriterions "mse" [("chien", [.fin 2, .nan, .fin 2]), ("chat", [.fin (-1), .fin (-1), .nan]), ("cheval", [.nan, .nan, .nan])] [.fin (-1), .fin 0, .fin 2]) [("chien", .fin (9/2)), ("chat", .fin (1/2)), ("cheval", .nan)] = true := by decide +kernel
example : gives (RFun.mae [.fin 2, .nan, .fin 2] [.fin (-1), .fin 0, .fin 2]) (.fin (3/2)) = true := by decide +kernel
example : gives (RFun.mae [.nan, .nan, .nan] [.fin (-1), .fin 0, .fin 2]) (.nan) = true := by decide +kernel
example : givesAll (RFun.regressionCriterions "mae" [("0", [.fin 2, .nan, .fin 2]), ("1", [.fin (-1), .fin (-1), .nan]), ("2", [.nan, .nan, .nan])] [.fin (-1), .fin 0, .fin 2]) [("0", .fin (3/2)), ("1", .fin (1/2)), ("2", .nan)] = true := by decide +kernel
example : givesAll (RFun.regressionCriterions "mae" [("chien", [.fin 2, .nan, .fin 2]), ("chat", [.fin (-1), .fin (-1), .nan]), ("cheval", [.nan, .nan, .nan])] [.fin (-1), .fin 0, .fin 2]) [("chien", .fin (3/2)), ("chat", .fin (1/2)), ("cheval", .nan)] = true := by decide +kernel
example : gives (RFun.aae [.fin 2, .nan, .fin 2] [.fin (-1), .fin 0, .fin 2]) (.fin (3/2)) = true := by decide +kernel
example : gives (RFun.aae [.nan, .nan, .nan] [.fin (-1), .fin 0, .fin 2]) (.nan) = true := by decide +kernel
example : givesAll (RFun.regressionCriterions "aae" [("0", [.fin 2, .nan, .fin 2]), ("1", [.fin (-1), .fin (-1), .nan]), ("2", [.nan, .nan, .nan])] [.fin (-1), .fin 0, .fin 2]) [("0", .fin (3/2)), ("1", .fin (1/2)), ("2", .nan)] = true := by decide +kernel
example : givesAll (RFun.regressionCriterions "aae" [("chien", [.fin 2, .nan, .fin 2]), ("chat", [.fin (-1), .fin (-1), .nan]), ("cheval", [.nan, .nan, .nan])] [.fin (-1), .fin 0, .fin 2]) [("chien", .fin (3/2)), ("chat", .fin (1/2)), ("cheval", .nan)] = true := by decide +kernel
example : gives (RFun.regressionCriterion "mse" [.fin 2, .nan, .fin 2] [.fin (-1), .fin 0, .fin 2]) (.fin (9/2)) = true := by decide +kernel
example : gives (RFun.regressionCriterion "mse" [.nan, .nan, .nan] [.fin (-1), .fin 0, .fin 2]) (.nan) = true := by decide +kernel
example : givesAll (RFun.regressionCriterions "mse" [("0", [.fin 2, .nan, .fin 2]), ("1", [.fin (-1), .fin (-1), .nan]), ("2", [.nan, .nan, .nan])] [.fin (-1), .fin 0, .fin 2]) [("0", .fin (9/2)), ("1", .fin (1/2)), ("2", .nan)] = true := by decide +kernel
example : givesAll (RFun.regressionCriterions "mse" [("chien", [.fin 2, .nan, .fin 2]), ("chat", [.fin (-1), .fin (-1), .nan]), ("cheval", [.nan, .nan, .nan])] [.fin (-1), .fin 0, .fin 2]) [("chien", .fin (9/2)), ("chat", .fin (1/2)), ("cheval", .nan)] = true := by decide +kernel
example : gives (RFun.regressionCriterion "mae" [.fin 2, .nan, .fin 2] [.fin (-1), .fin 0, .fin 2]) (.fin (3/2)) = true := by decide +kernel
example : gives (RFun.regressionCriterion "mae" [.nan, .nan, .nan] [.fin (-1), .fin 0, .fin 2]) (.nan) = true := by decide +kernel
example : givesAll (RFun.regressionCriterions "mae" [("0", [.fin 2, .nan, .fin 2]), ("1", [.fin (-1), .fin (-1), .nan]), ("2", [.nan, .nan, .nan])] [.fin (-1), .fin 0, .fin 2]) [("0", .fin (3/2)), ("1", .fin (1/2)), ("2", .nan)] = true := by decide +kernel
example : givesAll (RFun.regressionCriterions "mae" [("chien", [.fin 2, .nan, .fin 2]), ("chat", [.fin (-1), .fin (-1), .nan]), ("cheval", [.nan, .nan, .nan])] [.fin (-1), .fin 0, .fin 2]) [("chien", .fin (3/2)), ("chat", .fin (1/2)), ("cheval", .nan)] = true := by decide +kernel
example : gives (RFun.regressionCriterion "aae" [.fin 2, .nan, .fin 2] [.fin (-1), .fin 0, .fin 2]) (.fin (3/2)) = true := by decide +kernel
example : gives (RFun.regressionCriterion "aae" [.nan, .nan, .nan] [.fin (-1), .fin 0, .fin 2]) (.nan) = true := by decide +kernel
example : givesAll (RFun.regressionCriterions "aae" [("0", [.fin 2, .nan, .fin 2]), ("1", [.fin (-1), .fin (-1), .nan]), ("2", [.nan, .nan, .nan])] [.fin (-1), .fin 0, .fin 2]) [("0", .fin (3/2)), ("1", .fin (1/2)), ("2", .nan)] = true := by decide +kernel
example : givesAll (RFun.regressionCriterions "aae" [("chien", [.fin 2, .nan, .fin 2]), ("chat", [.fin (-1), .fin (-1), .nan]), ("cheval", [.nan, .nan, .nan])] [.fin (-1), .fin 0, .fin 2]) [("chien", .fin (3/2)), ("chat", .fin (1/2)), ("cheval", .nan)] = true := by decide +kernel
example : gives (.ok (RFun.successRate (.num (.fin 2)) [.num (.fin 0), .num (.fin 1), .num (.fin 2), .num (.fin 0)])) (.fin (1/4)) = true := by decide +kernel
example : gives (.ok (RFun.successRate (.text "chien") [.text "chien", .text "chien", .text "cheval", .text "chouette"])) (.fin (1/2)) = true := by decide +kernel
example : gives (RFun.classificationCriterion "success_rate" [1, 0, 1, 0] (.num (.fin 2)) [.num (.fin 0), .num (.fin 1), .num (.fin 2), .num (.fin 0)]) (.fin (1/2)) = true := by decide +kernel
example : gives (RFun.classificationCriterion "success_rate" [1, 1, 0, 0] (.text "chien") [.text "chien", .text "chien", .text "cheval", .text "chouette"]) (.fin 1) = true := by decide +kernel
example : givesAll (RFun.classificationCriterions [("0", [1, 0, 1, 0]), ("1", [1, 0, 1, 1])] [("0", .num (.fin 2)), ("1", .num (.fin 0))] [.num (.fin 0), .num (.fin 1), .num (.fin 2), .num (.fin 0)]) [("0", .fin (1/2)), ("1", .fin (2/3))] = true := by decide +kernel
example : givesAll (RFun.classificationCriterions [("0", [1, 0, 1, 0]), ("1", [0, 1, 1, 1])] [("0", .text "chien"), ("1", .text "cheval")] [.text "chien", .text "chien", .text "cheval", .text "chouette"]) [("0", .fin (1/2)), ("1", .fin (1/3))] = true := by decide +kernel
example : givesAll (RFun.classificationCriterions [("a", [1, 0, 1, 0]), ("b", [0, 1, 1, 1])] [("a", .text "chien"), ("b", .text "cheval")] [.text "chien", .text "chien", .text "cheval", .text "chouette"]) [("a", .fin (1/2)), ("b", .fin (1/3))] = true := by decide +kernel

/-! ## Trees -/

/-- The tree which the expected rules of `test_extract_rules_from_tree`, `/repo/tests/unit/test_rule_utils.py` lines 8-106, tell: a
comparison of the second feature, then of the first one on both sides.  The tree itself is learnt by scikit-learn, which is not
modelled; the values of the nodes are not compared by the test. -/
def depthTwo (leaf : Bool) : Tree.Input where
  feature := [1, 0, -2, -2, 0, -2, -2]
  threshold := [.fin (-37617861526086926 / 10 ^ 19), .fin (61888848431408405 / 10 ^ 19), .fin (-2), .fin (-2),
    .fin (14811381697654724 / 10 ^ 18), .fin (-2), .fin (-2)]
  left := [1, 2, -1, -1, 5, -1, -1]
  right := [4, 3, -1, -1, 6, -1, -1]
  value := [[0], [0], [0], [0], [0], [0], [0]]
  nFeatures := some 2
  names := none
  classes := none
  xmins := [.fin (-902752958985185 / 10 ^ 16), .fin (-126097385560409 / 10 ^ 15)]
  xmaxs := [.fin (17055522598066 / 10 ^ 14), .fin (133598980013008 / 10 ^ 15)]
  getLeaf := leaf
  kind := .regression
  stack := false
  limit := 100
  sortBy := "index"

/-- The rules extracted are these ones, in this order -/
def extracts (leaf : Bool) (gs : List Given) : Bool :=
  match Tree.extract (rsEnv .regression none false) (depthTwo leaf), gs.mapM fun g => g.make "index" with
  | .ok s, .ok l => s.rules.map (fun m => lists m.rule.cond) == l.map lists
  | _, _ => false

/-- `test_extract_rules_from_tree` with `get_leaf=False` -/
example : extracts false [
    ⟨(some [.int 1]), none, [.float (.fin (-126097385560409/1000000000000000))], [.float (.fin (-18808930763043463/5000000000000000000))]⟩,
    ⟨(some [.int 1, .int 0]), none, [.float (.fin (-126097385560409/1000000000000000)), .float (.fin (-180550591797037/2000000000000000))], [.float (.fin (-18808930763043463/5000000000000000000)), .float (.fin (12377769686281681/2000000000000000000))]⟩,
    ⟨(some [.int 1, .int 0]), none, [.float (.fin (-126097385560409/1000000000000000)), .float (.fin (12377769686281681/2000000000000000000))], [.float (.fin (-18808930763043463/5000000000000000000)), .float (.fin (8527761299033/50000000000000))]⟩,
    ⟨(some [.int 1]), none, [.float (.fin (-18808930763043463/5000000000000000000))], [.float (.fin (8349936250813/62500000000000))]⟩,
    ⟨(some [.int 1, .int 0]), none, [.float (.fin (-18808930763043463/5000000000000000000)), .float (.fin (-180550591797037/2000000000000000))], [.float (.fin (8349936250813/62500000000000)), .float (.fin (3702845424413681/250000000000000000))]⟩,
    ⟨(some [.int 1, .int 0]), none, [.float (.fin (-18808930763043463/5000000000000000000)), .float (.fin (3702845424413681/250000000000000000))], [.float (.fin (8349936250813/62500000000000)), .float (.fin (8527761299033/50000000000000))]⟩] = true := by decide +kernel

/-- `test_extract_rules_from_tree` with `get_leaf=True` -/
example : extracts true [
    ⟨(some [.int 1, .int 0]), none, [.float (.fin (-126097385560409/1000000000000000)), .float (.fin (-180550591797037/2000000000000000))], [.float (.fin (-18808930763043463/5000000000000000000)), .float (.fin (12377769686281681/2000000000000000000))]⟩,
    ⟨(some [.int 1, .int 0]), none, [.float (.fin (-126097385560409/1000000000000000)), .float (.fin (12377769686281681/2000000000000000000))], [.float (.fin (-18808930763043463/5000000000000000000)), .float (.fin (8527761299033/50000000000000))]⟩,
    ⟨(some [.int 1, .int 0]), none, [.float (.fin (-18808930763043463/5000000000000000000)), .float (.fin (-180550591797037/2000000000000000))], [.float (.fin (8349936250813/62500000000000)), .float (.fin (3702845424413681/250000000000000000))]⟩,
    ⟨(some [.int 1, .int 0]), none, [.float (.fin (-18808930763043463/5000000000000000000)), .float (.fin (3702845424413681/250000000000000000))], [.float (.fin (8349936250813/62500000000000)), .float (.fin (8527761299033/50000000000000))]⟩] = true := by decide +kernel

end Verif.RepoTests
