import Verif.RuleHistory
import Verif.RFunLemmas
import Verif.ConditionProps

/-!
# Properties of rules: C17 to C20
-/

namespace Verif.RuleProps

open Verif Rule Spec Cond

/-! ## C17 -/

/-- **C17 (stays rejected).** A rule which is not good is not good after any history of calls, under any thresholds. -/
theorem C17_stays_rejected {r : Rule} (h : r.good = false) (ops : List (Env × Op)) : (play r ops).good = false := by
  obtain ⟨l, hl⟩ := play_after r ops
  rw [hl.2.1, h, Bool.false_and]

/-- **C17 (good exactly when no check failed).** A rule made by the constructor is good, after any history of calls, exactly
when all threshold checks made so far answered True, and it has a `bad_because` exactly when it is not good. -/
theorem C17_good_iff (E : Env) (cond : Cond) (act : Option (List Nat)) (ops : List (Env × Op)) :
    ((play (make E cond act).2 ops).good = true ↔ ∀ b ∈ (play (make E cond act).2 ops).log, b = true) ∧
    ((play (make E cond act).2 ops).good = false ↔ (play (make E cond act).2 ops).badBecause ≠ none) := by
  obtain ⟨l, hl⟩ := make_after E cond act
  obtain ⟨l', hl'⟩ := play_after (make E cond act).2 ops
  obtain ⟨h1, h2, h3, h4⟩ := hl.trans hl'
  have e1 : (play (make E cond act).2 ops).log = l' ++ l := by rw [h1]; simp [blank]
  have e2 : (play (make E cond act).2 ops).good = (l' ++ l).all id := by rw [h2]; simp [blank]
  constructor
  · rw [e1, e2, List.all_eq_true]
    rfl
  · rw [e2]
    constructor
    · intro h
      have := h4 h
      intro e
      rw [e] at this
      cases this
    · intro h
      cases hb : (l' ++ l).all id with
      | false => rfl
      | true => exact absurd (by rw [h3 hb]; rfl) h

/-- What the log of `C17_good_iff` is: a threshold check adds its answer to the log and nothing else, and the rule is good
afterwards exactly when it was good before and the answer is True. -/
theorem C17_check {E : Env} {t : Thresholds.Limits} (ht : E.thresholds = some t) (r : Rule) (name : String) :
    (∀ b, accepts E t r name = .ok b →
      (check E name r).1 = .ok () ∧ (check E name r).2.log = b :: r.log ∧ (check E name r).2.good = (r.good && b) ∧
        (b = false → (check E name r).2.badBecause = some name)) ∧
    ∀ e, accepts E t r name = .error e → check E name r = (.error e, r) := by
  unfold check
  simp only [ht]
  rw [Py.bind_run, checkOne_run]
  constructor
  · rintro b h
    rw [h]
    cases b <;> simp
  · rintro e h
    rw [h]

/-- **C17 (within limits).** A rule which is good after `fit` or `eval` is within all the limits: asking again about any
attribute gives True. -/
theorem C17_good_within_limits {E : Env} {y : List Label} {xs : Option Xs} {force : Bool} {kw : Kw} {r r' : Rule}
    {t : Thresholds.Limits} (ht : E.thresholds = some t) (hg : r'.good = true) :
    (Runs r xs → fit E y xs force kw r = (.ok (), r') → ∀ a ∈ E.names, accepts E t r' a = .ok true) ∧
    ∀ rc, (∀ x, xs = some x → x.length ≠ 0) → eval E y xs rc force kw r = (.ok (), r') →
      ∀ a ∈ E.names, accepts E t r' a = .ok true :=
  ⟨fun hx h => fit_good ht hx h hg, fun _ hx h => eval_good ht hx h hg⟩

/-- **C17 (rejected rules are not evaluated).** `eval` without `force_if_not_good` of a rule which is not good computes nothing:
the criterion becomes NaN. -/
theorem C17_eval_rejected {E : Env} {y : List Label} {xs : Option Xs} {rc : Bool} {kw : Kw} {r : Rule}
    (h : r.good = false) (hk : kw.hasMethod = false) :
    eval E y xs rc false kw r = (.ok (), { r with fitted := true, criterion := .num .nan }) := by
  unfold eval
  rw [if_neg (by simp [hk]), Py.bind_run]
  simp only [Py.get_run, h, Bool.not_false, Bool.and_self, if_true, Py.modify_run]
  cases E.kind <;> rfl

/-! Data of the examples. -/

/-- Exact for 0 and 1, which is all the examples need. -/
def someSqrt : Num → Num
  | .fin q => if q = 0 then .fin 0 else if q < 0 then .nan else .fin 1
  | x => x

/-- An environment with a minimal coverage of one half. -/
def someEnv (kind : Kind) : Env where
  kind := kind
  thresholds := some [("coverage", [("min", .num (.fin (1 / 2)))])]
  math := ⟨fun _ => .error .valueError, .ok, .ok, fun _ => "", fun _ => .error .valueError⟩
  sqrt := someSqrt
  floatStr := fun p => if p = 1 then "1.0" else if p = 1 / 3 then "0.3333333333333333" else "0.6666666666666666"
  store := fun _ => .ok ()
  names := ["coverage", "prediction", "std"]
  extra := fun _ _ => .error .attributeError

/-- One feature, between 0 and 1. -/
def someCond : Cond :=
  { indexes := some [0], bmins := some [.fin 0], bmaxs := some [.fin 1], names := some ["a"], impossible := false }

/-- Four rows, three of them activated. -/
def someXs : Xs := .arr ⟨1, [[.fin 0], [.fin 1], [.fin 2], [.fin (1 / 2)]]⟩

/-- Four rows, one of them activated. -/
def farXs : Xs := .arr ⟨1, [[.fin 0], [.fin 3], [.fin 2], [.fin 4]]⟩

/-- A rule rejected by `fit` on `farXs` (coverage 1/4), and fitted again on `someXs` (coverage 3/4). -/
example :
    let E := someEnv .regression
    let y := [Label.num (.fin 1), .num (.fin 2), .num (.fin 3), .num (.fin 4)]
    let r := (make E someCond none).2
    let r1 := play r [(E, .fit y (some farXs) false {})]
    let r2 := play r1 [(E, .fit y (some someXs) false {}), (E, .checkAll)]
    r.good = true ∧ r1.good = false ∧ r1.badBecause = some "coverage" ∧ r2.good = false ∧
      r2.getCoverage = .ok (.num (.fin (3 / 4))) ∧ r2.log = [true, true, true, true, false] := by
  decide +kernel

/-- A rule which is good after `fit`. -/
example :
    let E := someEnv .regression
    let y := [Label.num (.fin 1), .num (.fin 2), .num (.fin 3), .num (.fin 3)]
    let r := (make E someCond none).2
    Runs r (some someXs) ∧ (fit E y (some someXs) false {} r).1 = .ok () ∧ (fit E y (some someXs) false {} r).2.good = true ∧
      (fit E y (some someXs) false {} r).2.prediction = .label (.num (.fin 2)) := by
  refine ⟨?_, ?_⟩
  · show someXs.length ≠ 0
    decide
  · decide +kernel

/-! ## C18 -/

/-- **C18 (numbers).** A rule whose prediction is the number `x`, with the activation vector `u`, predicts `x` on the activated
points and NaN elsewhere. -/
theorem C18_predict_number {E : Env} {r : Rule} {u : List Bool} {x : Num} (hp : r.getPrediction E = .ok (some (.num x)))
    (hu : r.act = some (arr u)) (hne : u ≠ []) :
    predict E r none = .ok (u.map fun b => .num (if b then x else .nan)) := by
  have ha : r.activation = some (arr u) := by
    unfold activation
    rw [hu]
    simp [arr, hne]
  simp only [predict, ha, bind, Except.bind, hp, arr, List.map_map, Except.ok.injEq]
  apply List.map_congr_left
  rintro b -
  cases b <;> simp

/-- **C18 (classes).** The same for a class name which has at most 32 characters and is not "nan": "nan" elsewhere.  Missing:
longer names and the name "nan", for which it is false (`C18_long_name_false`, `C18_nan_name_false`). -/
theorem C18_predict_class_partial {E : Env} {r : Rule} {u : List Bool} {s : String}
    (hp : r.getPrediction E = .ok (some (.text s))) (hu : r.act = some (arr u)) (hne : u ≠ []) (hlen : s.length ≤ 32)
    (hn : s ≠ "nan") :
    predict E r none = .ok (u.map fun b => .text (if b then s else "nan")) := by
  have ha : r.activation = some (arr u) := by
    unfold activation
    rw [hu]
    simp [arr, hne]
  have ht : truncate s = s := by
    unfold truncate
    rw [List.take_of_length_le hlen, String.ofList_toList]
  simp only [predict, ha, bind, Except.bind, hp, arr, List.map_map, if_neg hn, ht, Except.ok.injEq]
  apply List.map_congr_left
  rintro b -
  cases b <;> simp

/-- **C18 (new data).** On an array, a rule whose prediction is the number `x` predicts `x` for the rows which satisfy its
condition and NaN for the others. -/
theorem C18_predict_array {E : Env} {r : Rule} {fs : List Feature} {xs : Mat} {x : Num}
    (hp : r.getPrediction E = .ok (some (.num x))) (hc : Reach r.cond) (hs : Shows r.cond fs)
    (hr : ∀ f ∈ fs, InRange xs.ncols f.index) (hst : ∀ v, E.store v = .ok ()) :
    ∃ p, predict E r (some (.arr xs)) = .ok p ∧ p.length = xs.rows.length ∧
      ∀ (i : Nat) (row : List Num), xs.rows[i]? = some row →
        (InBox fs xs.ncols row → p[i]? = some (.num x)) ∧ (¬ InBox fs xs.ncols row → p[i]? = some (.num .nan)) := by
  have he := ConditionProps.C11_evaluate hc hs hr
  refine ⟨(xs.rows.map fun row => flag (InBox fs xs.ncols row)).map fun a => .num (if a = 1 then x else .nan), ?_, by simp, ?_⟩
  · simp only [predict, evaluateActivation, Rule.evaluate, he, hst, bind, Except.bind, hp]
  · intro i row hi
    simp only [List.getElem?_map, hi, Option.map_some]
    constructor
    · intro hb
      simp [flag, hb]
    · intro hb
      simp [flag, hb]

/-- **C18 (new data, classes).** -/
theorem C18_predict_array_class_partial {E : Env} {r : Rule} {fs : List Feature} {xs : Mat} {s : String}
    (hp : r.getPrediction E = .ok (some (.text s))) (hc : Reach r.cond) (hs : Shows r.cond fs)
    (hr : ∀ f ∈ fs, InRange xs.ncols f.index) (hst : ∀ v, E.store v = .ok ()) (hlen : s.length ≤ 32) (hn : s ≠ "nan") :
    ∃ p, predict E r (some (.arr xs)) = .ok p ∧ p.length = xs.rows.length ∧
      ∀ (i : Nat) (row : List Num), xs.rows[i]? = some row →
        (InBox fs xs.ncols row → p[i]? = some (.text s)) ∧ (¬ InBox fs xs.ncols row → p[i]? = some (.text "nan")) := by
  have he := ConditionProps.C11_evaluate hc hs hr
  have ht : truncate s = s := by
    unfold truncate
    rw [List.take_of_length_le hlen, String.ofList_toList]
  refine ⟨(xs.rows.map fun row => flag (InBox fs xs.ncols row)).map fun a => if a = 1 then .text s else .text "nan",
    ?_, by simp, ?_⟩
  · simp only [predict, evaluateActivation, Rule.evaluate, he, hst, bind, Except.bind, hp, if_neg hn, ht]
  · intro i row hi
    simp only [List.getElem?_map, hi, Option.map_some]
    constructor
    · intro hb
      simp [flag, hb]
    · intro hb
      simp [flag, hb]

/-- **C18 (prediction vector).** The prediction vector of a rule which has features: its prediction on activated points, NaN
elsewhere, for numbers and for class names of any length.  Missing: rules without features (`C18_no_feature_false`). -/
theorem C18_vector_partial {E : Env} {r : Rule} {u : List Bool} {p : Label} (hp : r.getPrediction E = .ok (some p))
    (hf : r.length ≠ 0) (hne : u ≠ []) :
    calcPredictionVector E r (some (arr u)) = .ok (some (u.map fun b => if b then p else .num .nan)) ∧
    (r.act = some (arr u) →
      calcPredictionVector E r none = .ok (some (u.map fun b => if b then p else .num .nan))) := by
  have key : ∀ a, (match a with | some v => some v | none => r.activation) = some (arr u) →
      calcPredictionVector E r a = .ok (some (u.map fun b => if b then p else .num .nan)) := by
    intro a ha
    have e : calcPredictionVector E r a = calcPredictionVector E r (some (arr u)) := by
      unfold calcPredictionVector
      cases a with
      | some v => simp only at ha; rw [ha]
      | none => simp only at ha ⊢; rw [ha]
    rw [e]
    simp only [calcPredictionVector, hp, bind, Except.bind, if_neg hf]
    cases p with
    | text s =>
      simp only [arr, List.map_map, Except.ok.injEq, Option.some.injEq]
      apply List.map_congr_left
      rintro b -
      cases b <;> simp
    | num x =>
      simp only [arr, List.map_map, Except.ok.injEq, Option.some.injEq]
      apply List.map_congr_left
      rintro b -
      cases b
      · simp
      · cases x <;> simp [Num.mul, Num.infSign]
  refine ⟨key _ rfl, fun hu => key _ ?_⟩
  simp [activation, hu, arr, hne]

/-- **C18 (not fitted).** A rule without prediction predicts NaN everywhere; a rule without activation vector refuses to predict
without data. -/
theorem C18_unfitted {E : Env} {r : Rule} (hp : r.prediction = .none) :
    (∀ u, r.act = some (arr u) → u ≠ [] → predict E r none = .ok (u.map fun _ => .num .nan)) ∧
    (r.act = none → predict E r none = .error .valueError ∧ calcPredictionVector E r none = .ok none) := by
  constructor
  · intro u hu hne
    simp only [predict, activation, hu, arr, List.length_map, List.length_eq_zero_iff, hne, if_false, getPrediction, hp, bind,
      Except.bind, List.map_map]
    rfl
  · intro hn
    simp [predict, calcPredictionVector, activation, hn, bind, Except.bind]

/-- A rule with a prediction and an activation vector. -/
def someRule (p : Pred) (v : List Nat) : Rule := { blank someCond (some v) with prediction := p }

/-- A reachable condition, a prediction, and rows inside and outside. -/
example : (someRule (.label (.text "red")) [1, 0, 1]).getPrediction (someEnv .classification) = .ok (some (.text "red")) ∧
    Reach (someRule (.label (.text "red")) [1, 0, 1]).cond ∧
    Shows someCond [⟨"a", 0, .fin 0, .fin 1⟩] ∧
    predict (someEnv .classification) (someRule (.label (.text "red")) (arr [true, false, true])) none =
      .ok [.text "red", .text "nan", .text "red"] ∧
    predict (someEnv .regression) (someRule (.label (.num (.fin 7))) (arr [true, false])) (some someXs) =
      .ok [.num (.fin 7), .num (.fin 7), .num .nan, .num (.fin 7)] ∧
    calcPredictionVector (someEnv .regression) (someRule (.label (.num (.fin 7))) (arr [true, false])) none =
      .ok (some [.num (.fin 7), .num .nan]) := by
  refine ⟨rfl, ?_, ⟨rfl, rfl, rfl, rfl⟩, by decide +kernel, by decide +kernel, by decide +kernel⟩
  exact .init (by_ := "index") (i := some [.int 0]) (lo := some [.float (.fin 0)]) (hi := some [.float (.fin 1)])
    (n := some [.str "a"]) (s := true) (by decide +kernel)

/-- **C18 is false for long class names**: only 32 characters are left. -/
theorem C18_long_name_false :
    ∃ (E : Env) (r : Rule) (s : String), r.getPrediction E = .ok (some (.text s)) ∧ r.act = some [1] ∧
      predict E r none ≠ .ok [.text s] ∧ predict E r none = .ok [.text "class with more than thirty two "] := by
  refine ⟨someEnv .classification, someRule (.label (.text "class with more than thirty two characters")) [1],
    "class with more than thirty two characters", rfl, rfl, ?_, ?_⟩ <;> decide +kernel

/-- **C18 is false for the class name "nan"**: `predict` raises. -/
theorem C18_nan_name_false :
    ∃ (E : Env) (r : Rule), r.getPrediction E = .ok (some (.text "nan")) ∧ r.act = some [1] ∧
      predict E r none = .error .valueError :=
  ⟨someEnv .classification, someRule (.label (.text "nan")) [1], rfl, rfl, by decide +kernel⟩

/-- **C18 is false for the prediction vector of a rule without features**: it is empty, whatever the number of points. -/
theorem C18_no_feature_false :
    ∃ (E : Env) (r : Rule), Reach r.cond ∧ Shows r.cond [] ∧ r.act = some [1, 0, 1] ∧
      r.getPrediction E = .ok (some (.num (.fin 2))) ∧ calcPredictionVector E r none = .ok (some []) := by
  refine ⟨someEnv .regression,
    { someRule (.label (.num (.fin 2))) [1, 0, 1] with
      cond := { indexes := some [], bmins := some [], bmaxs := some [], names := some [], impossible := false } },
    ?_, ⟨rfl, rfl, rfl, rfl⟩, rfl, rfl, by decide +kernel⟩
  exact .init (by_ := "index") (i := some []) (lo := some []) (hi := some []) (n := none) (s := true) (by decide +kernel)

end Verif.RuleProps
