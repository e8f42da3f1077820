import Verif.RuleStatLemmas

/-!
# Properties of the figures of a rule: C19 and C20
-/

namespace Verif.RuleStatProps

open Verif Rule Spec RFun

/-! ## C19 -/

/-- **C19 (prediction and sign).** After a `fit` which does not raise, of a rule which is still good (or with `force_if_not_good`),
working with the activation vector `u`: with `l` the targets of activated points which are not missing, the prediction is
the mean of `l`, it lies between the least and the greatest of `l`, and the sign is '-' exactly when it is negative; it is NaN
when there is none, and then the sign is '+'. -/
theorem C19_prediction {E : Env} {y : List (Option Rat)} {xs : Option Xs} {force : Bool} {kw : Kw} {r r' : Rule} {u : List Bool}
    (hk : E.kind = .regression) (hx : Runs r xs) (hu : Uses E r xs (arr u)) (hl : y.length = u.length)
    (h : fit E (targets y) xs force kw r = (.ok (), r')) (hg : r'.good = true ∨ force = true) :
    (present (activated u y) ≠ [] → ∃ m : Rat, r'.prediction = .label (.num (.fin m)) ∧
      m * (present (activated u y)).length = (present (activated u y)).sum ∧
      (∃ a ∈ present (activated u y), a ≤ m) ∧ (∃ b ∈ present (activated u y), m ≤ b) ∧
      (m < 0 → r'.sign = .str "-") ∧ (0 ≤ m → r'.sign = .str "+")) ∧
    (present (activated u y) = [] → r'.prediction = .label (.num .nan) ∧ r'.sign = .str "+") := by
  obtain ⟨v, ys, m, var, hv, hys, hm, -, hd⟩ := fit_regression hk hx h hg
  have ev : v = arr u := by
    cases xs with
    | some x => exact Except.ok.inj (hv.symm.trans hu)
    | none => exact Option.some.inj (hv.symm.trans hu)
  subst ev
  rw [targets, numbers_ofOption] at hys
  cases hys
  rw [conditionalMean_spec hl] at hm
  have p1 : r'.prediction = .label (.num m) := congrArg Rule.prediction hd
  have p2 : r'.sign = .str (if m.lt (.fin 0) then "-" else "+") := congrArg Rule.sign hd
  constructor
  · intro hne
    rw [if_neg hne] at hm
    cases hm
    have hpos : ((present (activated u y)).length : Rat) ≠ 0 := by simpa using hne
    refine ⟨_, p1, ?_, (meanOf_bounds hne).1, (meanOf_bounds hne).2, ?_, ?_⟩
    · rw [meanOf, div_mul_cancel₀ _ hpos]
    · intro hm
      rw [p2]
      simp [Num.lt, Num.le, hm, hm.le]
    · intro hm
      rw [p2]
      simp [Num.lt, Num.le, hm]
  · intro he
    rw [if_pos he] at hm
    cases hm
    exact ⟨p1, by rw [p2]; rfl⟩

/-- **C19 (standard deviation).** After such a `fit`, when at least two activated points have a target, or there is only one
activated point: the standard deviation is a number, not negative, and zero exactly when these targets are all equal.
Missing: the other cases, `C19_std_no_target_false` and `C19_std_one_target_false`. -/
theorem C19_std_partial {E : Env} {y : List (Option Rat)} {xs : Option Xs} {force : Bool} {kw : Kw} {r r' : Rule} {u : List Bool}
    (hq : SquareRoot E.sqrt)
    (hk : E.kind = .regression) (hx : Runs r xs) (hu : Uses E r xs (arr u)) (hl : y.length = u.length)
    (h : fit E (targets y) xs force kw r = (.ok (), r')) (hg : r'.good = true ∨ force = true)
    (hn : 2 ≤ (present (activated u y)).length ∨ (activated u y).length = 1) :
    ∃ s : Rat, r'.std = .num (.fin s) ∧ 0 ≤ s ∧
      (s = 0 ↔ ∀ a ∈ present (activated u y), ∀ b ∈ present (activated u y), a = b) := by
  obtain ⟨v, ys, m, var, hv, hys, -, hvar, hd⟩ := fit_regression hk hx h hg
  have ev : v = arr u := by
    cases xs with
    | some x => exact Except.ok.inj (hv.symm.trans hu)
    | none => exact Option.some.inj (hv.symm.trans hu)
  subst ev
  rw [targets, numbers_ofOption] at hys
  cases hys
  rw [conditionalVar_spec hl] at hvar
  have p1 : r'.std = .num (E.sqrt var) := congrArg Rule.std hd
  by_cases h1 : (activated u y).length = 1
  · rw [if_pos h1] at hvar
    cases hvar
    refine ⟨0, by rw [p1, hq.zero], le_refl _, ?_⟩
    simp only [true_iff]
    obtain ⟨z, hz⟩ := List.length_eq_one_iff.1 h1
    rw [hz]
    intro a ha b hb
    cases z with
    | none => simp [present] at ha
    | some q => simp [present] at ha hb; rw [ha, hb]
  · have h2 : 2 ≤ (present (activated u y)).length := hn.resolve_right h1
    rw [if_neg h1, if_neg (by omega)] at hvar
    cases hvar
    rcases (varianceOf_nonneg h2).lt_or_eq with hpos | hzero
    · obtain ⟨s, hs, he⟩ := hq.pos _ hpos
      refine ⟨s, by rw [p1, he], hs.le, ?_⟩
      rw [← varianceOf_eq_zero h2]
      constructor
      · intro e; exact absurd e hs.ne'
      · intro e; exact absurd e hpos.ne'
    · refine ⟨0, by rw [p1, ← hzero, hq.zero], le_refl _, ?_⟩
      rw [← varianceOf_eq_zero h2]
      simp [← hzero]

/-- The square root of the examples is one as far as it is asked. -/
example : SquareRoot RuleProps.someSqrt :=
  ⟨rfl, fun q hq => ⟨1, by norm_num, by simp [RuleProps.someSqrt, hq.ne', not_lt.2 hq.le]⟩, rfl⟩

/-- Three activated points out of four, one of them without target. -/
example :
    let E := RuleProps.someEnv .regression
    let y : List (Option Rat) := [some (-1), none, some 10, some (-3)]
    let r := (make E RuleProps.someCond none).2
    let r' := (fit E (targets y) (some RuleProps.someXs) false {} r).2
    Runs r (some RuleProps.someXs) ∧ Uses E r (some RuleProps.someXs) (arr [true, true, false, true]) ∧
    (fit E (targets y) (some RuleProps.someXs) false {} r).1 = .ok () ∧ r'.good = true ∧
      present (activated [true, true, false, true] y) = [-1, -3] ∧
      r'.prediction = .label (.num (.fin (-2))) ∧ r'.sign = .str "-" := by
  refine ⟨?_, ?_, ?_, ?_, ?_, ?_, ?_⟩
  · show RuleProps.someXs.length ≠ 0
    decide
  · show evaluateActivation _ _ RuleProps.someXs = _
    decide +kernel
  all_goals decide +kernel

/-- **C19 (standard deviation) is false for one activated point without target**: nothing is known, and the standard deviation
is 0 instead of missing. -/
theorem C19_std_no_target_false :
    ∃ (E : Env) (r r' : Rule) (xs : Xs) (u : List Bool) (y : List (Option Rat)), SquareRoot E.sqrt ∧ E.kind = .regression ∧
      Uses E r (some xs) (arr u) ∧ y.length = u.length ∧ fit E (targets y) (some xs) true {} r = (.ok (), r') ∧
      present (activated u y) = [] ∧ r'.prediction = .label (.num .nan) ∧ r'.std = .num (.fin 0) := by
  refine ⟨RuleProps.someEnv .regression, (make (RuleProps.someEnv .regression) RuleProps.someCond none).2, _, RuleProps.farXs,
    [true, false, false, false], [none, some 1, some 2, some 3], ?_, rfl, ?_, rfl, Prod.ext (x := fit _ _ _ _ _ _) (y := (Except.ok (), _)) ?_ rfl, ?_, ?_, ?_⟩
  · exact ⟨rfl, fun q hq => ⟨1, by norm_num, by
      simp [RuleProps.someEnv, RuleProps.someSqrt, hq.ne', not_lt.2 hq.le]⟩, rfl⟩
  · show evaluateActivation _ _ _ = _
    decide +kernel
  all_goals decide +kernel

/-- **C19 (standard deviation) is false for several activated points only one of which has a target**: the standard deviation
is NaN, although a single target is constant (and a single activated point with a target gives 0). -/
theorem C19_std_one_target_false :
    ∃ (E : Env) (r r' : Rule) (xs : Xs) (u : List Bool) (y : List (Option Rat)), SquareRoot E.sqrt ∧ E.kind = .regression ∧
      Uses E r (some xs) (arr u) ∧ y.length = u.length ∧ fit E (targets y) (some xs) true {} r = (.ok (), r') ∧
      present (activated u y) = [2] ∧ r'.prediction = .label (.num (.fin 2)) ∧ r'.std = .num .nan := by
  refine ⟨RuleProps.someEnv .regression, (make (RuleProps.someEnv .regression) RuleProps.someCond none).2, _, RuleProps.someXs,
    [true, true, false, true], [none, some 2, some 3, none], ?_, rfl, ?_, rfl, Prod.ext (x := fit _ _ _ _ _ _) (y := (Except.ok (), _)) ?_ rfl, ?_, ?_, ?_⟩
  · exact ⟨rfl, fun q hq => ⟨1, by norm_num, by
      simp [RuleProps.someEnv, RuleProps.someSqrt, hq.ne', not_lt.2 hq.le]⟩, rfl⟩
  · show evaluateActivation _ _ _ = _
    decide +kernel
  all_goals decide +kernel

/-! ## C20 -/

/-- **C20 (frequencies).** After a `fit` which does not raise, of a rule which is still good (or with `force_if_not_good`), working
with the activation vector `u`, with classes which are all numbers or all texts: the probabilities are the classes of the
activated points in increasing order, each once, with its frequency; frequencies are positive and sum to one. -/
theorem C20_frequencies {E : Env} {y : List Label} {xs : Option Xs} {force : Bool} {kw : Kw} {r r' : Rule} {u : List Bool}
    (hk : E.kind = .classification) (hx : Runs r xs) (hu : Uses E r xs (arr u)) (hl : y.length = u.length)
    (ht : SameType (activated u y))
    (h : fit E y xs force kw r = (.ok (), r')) (hg : r'.good = true ∨ force = true) :
    ∃ p : List (Label × Rat), r'.prediction = .probs p ∧ (p.map (·.1)).Pairwise ClassLt ∧
      (∀ c, c ∈ p.map (·.1) ↔ c ∈ activated u y) ∧ (∀ x ∈ p, x.2 = frequency x.1 (activated u y) ∧ 0 < x.2) ∧
      (p.map (·.2)).sum = 1 := by
  obtain ⟨v, p, hv, hp, hd⟩ := fit_classification hk hx h hg
  have ev : v = arr u := by
    cases xs with
    | some x => exact Except.ok.inj (hv.symm.trans hu)
    | none => exact Option.some.inj (hv.symm.trans hu)
  subst ev
  have hne : activated u y ≠ [] := by
    intro e
    simp [classProbabilities, extract_arr hl, e, bind, Except.bind, counter] at hp
  obtain ⟨p', hp', hf⟩ := classProbabilities_spec hl ht hne
  rw [hp] at hp'
  cases hp'
  exact ⟨p, congrArg Rule.prediction hd, hf.sorted, hf.mem, fun x hx => ⟨hf.freq x hx, hf.pos x hx⟩, hf.sum hne⟩

/-- **C20 (predicted class, numbers).** When classes are numbers, the predicted class is one of the activated points, no other
is more frequent, and all smaller ones are less frequent. -/
theorem C20_number {E : Env} {y : List Label} {xs : Option Xs} {force : Bool} {kw : Kw} {r r' : Rule} {u : List Bool}
    (hk : E.kind = .classification) (hx : Runs r xs) (hu : Uses E r xs (arr u)) (hl : y.length = u.length)
    (ht : ∀ c ∈ activated u y, ∃ q, c = .num (.fin q))
    (h : fit E y xs force kw r = (.ok (), r')) (hg : r'.good = true ∨ force = true) :
    ∃ c, r'.getPrediction E = .ok (some c) ∧ c ∈ activated u y ∧
      (∀ d ∈ activated u y, frequency d (activated u y) ≤ frequency c (activated u y)) ∧
      ∀ d ∈ activated u y, ClassLt d c → frequency d (activated u y) < frequency c (activated u y) := by
  refine predicted hk hx hu hl (.inl ht) h hg ?_
  intro p hf a ha b hb
  obtain ⟨q, hq⟩ := ht a.1 ((hf.mem _).1 (List.mem_map_of_mem ha))
  obtain ⟨a1, a2⟩ := a
  obtain ⟨b1, b2⟩ := b
  simp only at hq
  subst hq
  simp [probaLt]

/-- **C20 (predicted class, texts).** The same when classes are texts, provided that the texts of the possible frequencies
`1/n`, ..., `n/n`, `n` activated points, are ordered as these numbers.  Missing: other cases, for which it is false
(`C20_text_false`). -/
theorem C20_text_partial {E : Env} {y : List Label} {xs : Option Xs} {force : Bool} {kw : Kw} {r r' : Rule} {u : List Bool}
    (hk : E.kind = .classification) (hx : Runs r xs) (hu : Uses E r xs (arr u)) (hl : y.length = u.length)
    (ht : ∀ c ∈ activated u y, ∃ s, c = .text s)
    (hS : ∀ i j : Nat, 0 < i → i < j → j ≤ (activated u y).length →
      E.floatStr ((i : Rat) / (activated u y).length) < E.floatStr ((j : Rat) / (activated u y).length))
    (h : fit E y xs force kw r = (.ok (), r')) (hg : r'.good = true ∨ force = true) :
    ∃ c, r'.getPrediction E = .ok (some c) ∧ c ∈ activated u y ∧
      (∀ d ∈ activated u y, frequency d (activated u y) ≤ frequency c (activated u y)) ∧
      ∀ d ∈ activated u y, ClassLt d c → frequency d (activated u y) < frequency c (activated u y) := by
  exact predicted hk hx hu hl (.inr ht) h hg fun p hf => probaLt_texts ht hS hf

/-- Three activated points of classes "b", "a", "b". -/
example :
    let E := RuleProps.someEnv .classification
    let y : List Label := [.text "b", .text "a", .text "c", .text "b"]
    let r := (make E RuleProps.someCond none).2
    let r' := (fit E y (some RuleProps.someXs) false {} r).2
    Uses E r (some RuleProps.someXs) (arr [true, true, false, true]) ∧
    (fit E y (some RuleProps.someXs) false {} r).1 = .ok () ∧ r'.good = true ∧
      r'.prediction = .probs [(.text "a", 1 / 3), (.text "b", 2 / 3)] ∧ r'.getPrediction E = .ok (some (.text "b")) := by
  refine ⟨?_, ?_⟩
  · show evaluateActivation _ _ RuleProps.someXs = _
    decide +kernel
  · decide +kernel

/-- The texts of the thirds are in order. -/
example : ∀ i j : Nat, 0 < i → i < j → j ≤ 3 →
    (RuleProps.someEnv .classification).floatStr ((i : Rat) / (3 : Nat)) <
      (RuleProps.someEnv .classification).floatStr ((j : Rat) / (3 : Nat)) := by
  intro i j h1 h2 h3
  have : (i = 1 ∧ j = 2) ∨ (i = 1 ∧ j = 3) ∨ (i = 2 ∧ j = 3) := by omega
  rcases this with ⟨rfl, rfl⟩ | ⟨rfl, rfl⟩ | ⟨rfl, rfl⟩ <;> decide +kernel

/-- **C20 (no activated point).** Without any activated point, `fit` of a good rule raises `IndexError`. -/
theorem C20_no_point {E : Env} {y : List Label} {u : List Bool} {r : Rule} (hk : E.kind = .classification)
    (hu : r.activation = some (arr u)) (hl : y.length = u.length) (he : activated u y = []) :
    (calcPrediction E y r).1 = .error .indexError := by
  unfold calcPrediction
  rw [Py.bind_run]
  simp only [Py.get_run, hk, hu]
  rw [Py.bind_run]
  simp [classProbabilities, extract_arr hl, he, bind, Except.bind, counter]

example : (Rule.blank RuleProps.someCond (some [0, 0])).activation = some (arr [false, false]) ∧
    activated [false, false] [Label.text "a", .text "b"] = [] := by decide +kernel

/-- **C20 (predicted class) is false when classes are texts**: probabilities are then compared as texts, and
"5e-05" comes after "0.99995".  A class with one point out of 20000 is predicted. -/
theorem C20_text_false :
    ∃ (E : Env) (r r' : Rule) (y : List Label) (u : List Bool), E.kind = .classification ∧ E.thresholds = none ∧
      E.floatStr (19999 / 20000) = "0.99995" ∧ E.floatStr (1 / 20000) = "5e-05" ∧
      r.fitted = false ∧ r.act = some (arr u) ∧ y.length = u.length ∧ (∀ c ∈ activated u y, ∃ s, c = .text s) ∧
      fit E y none false {} r = (.ok (), r') ∧ r'.good = true ∧ r'.getPrediction E = .ok (some (.text "b")) ∧
      frequency (.text "b") (activated u y) < frequency (.text "a") (activated u y) := by
  obtain ⟨n, hn⟩ : ∃ n : Nat, n = 19999 := ⟨_, rfl⟩
  have hn' : (n : Rat) = 19999 := by rw [hn]; norm_num
  have hne : allPoints n ≠ [] := List.cons_ne_nil _ _
  refine ⟨{ RuleProps.someEnv .classification with
      thresholds := none, floatStr := fun p => if p = 19999 / 20000 then "0.99995" else "5e-05" },
    blank RuleProps.someCond (some (arr (allPoints n))),
    { blank RuleProps.someCond (some (arr (allPoints n))) with
      trainSize := .num (.fin 20000), prediction := .probs [(.text "a", 19999 / 20000), (.text "b", 1 / 20000)], fitted := true },
    skewed n, allPoints n, rfl, rfl, by simp, by norm_num, rfl, rfl,
    by rw [skewed_length, allPoints, List.length_replicate], ?_, ?_, rfl, ?_, ?_⟩
  · rw [activated_skewed]
    intro c hc
    simp only [skewed, List.mem_append, List.mem_replicate, List.mem_singleton] at hc
    rcases hc with ⟨-, rfl⟩ | rfl
    · exact ⟨_, rfl⟩
    · exact ⟨_, rfl⟩
  · have hl := skewed_length n
    have hp := skewed_probabilities (n := n) (by omega)
    generalize skewed n = sk at hl hp ⊢
    generalize allPoints n = al at hp hne ⊢
    have e1 : (n : Rat) / (n + 1 : Nat) = 19999 / 20000 := by push_cast; rw [hn']; norm_num
    have e2 : ((1 : Nat) : Rat) / (n + 1 : Nat) = 1 / 20000 := by push_cast; rw [hn']; norm_num
    rw [e1, e2] at hp
    have hl' : (sk.length : Rat) = 20000 := by rw [hl]; push_cast; rw [hn']; norm_num
    have ha : ∀ r : Rule, r.act = some (arr al) → r.activation = some (arr al) := by
      intro r h
      simp [activation, h, arr, hne]
    simp (config := { decide := true }) [fit, Py.bind_run, blank, calcActivation, attrLoop, trainAttrs, RuleProps.someEnv, calcTrain,
      calcTrainSetSize, checkIfGood, check, checkAllIfGood, Rule.checkAll, calcPrediction, ha, hp, hl']
  · simp only [getPrediction, bestClass, List.foldl_cons, List.foldl_nil, probaLt, if_true]
    decide +kernel
  · rw [activated_skewed, frequency, frequency, skewed_length, (skewed_count _).1, (skewed_count _).2]
    push_cast
    rw [hn']
    norm_num

end Verif.RuleStatProps
