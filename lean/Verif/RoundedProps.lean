import Verif.RoundedLemmas
import Verif.ThresholdProps

/-!
# Properties of figures computed with rounding

`A : Machine` is any way of rounding with relative error at most `A.u`, and any order of summation.  `doubles` is the one of Python's
floats, with `u = 1 / 2 ^ 53`.
-/

namespace Verif.RoundedProps

open Spec Rounded
open RFun (FloatStr bestClass probaLt extract_arr classProbabilities_spec bestClass_frequencies)

/-! ## C56: figures made of counts -/

/-- **C56 (coverage).** The coverage of a rule is a number from 0 to 1 in spite of rounding; it is 0 exactly when no point is activated,
and 1 exactly when all are. -/
theorem C56_coverage {A : Machine} {u : List Bool} (hne : u ≠ []) (hu : u.length * A.u ≤ 1) :
    0 ≤ coverage A (arr u) ∧ coverage A (arr u) ≤ 1 ∧ (coverage A (arr u) = 0 ↔ ∀ b ∈ u, b = false) ∧
      (coverage A (arr u) = 1 ↔ ∀ b ∈ u, b = true) := by
  have hn := List.length_pos_iff.2 hne
  have hk : u.count true ≤ u.length := List.count_le_length
  rw [coverage_arr]
  refine ⟨(ratio_bounds hk).1, (ratio_bounds hk).2, ?_, ?_⟩
  · rw [ratio_zero hn, List.count_eq_zero]
    constructor
    · intro h b hb
      cases b
      · rfl
      · exact absurd hb h
    · intro h hb
      exact absurd (h _ hb) (by decide)
  · rw [ratio_one hk hn hu, List.count_eq_length]
    exact ⟨fun h b hb => (h b hb).symm, fun h b hb => (h b hb).symm⟩

example : coverage doubles (arr [true, false, true]) = double (2 / 3) ∧ double (2 / 3) ≠ 2 / 3 ∧ ([true, false, true].length : Rat) * doubles.u ≤ 1 := by
  refine ⟨?_, by decide +kernel, ?_⟩
  · rw [coverage_arr]; rfl
  · simp only [doubles, List.length_cons, List.length_nil]; norm_num

/-- **C56 (order of coverages).** Of two rules over the same points, the one which activates more points has the greater coverage, and
rules which activate equally many points have equal coverages. -/
theorem C56_order {A : Machine} {u v : List Bool} (hne : u ≠ []) (h : v.length = u.length) (hu : 2 * (u.length : Rat) * A.u ≤ 1) :
    (coverage A (arr u) < coverage A (arr v) ↔ u.count true < v.count true) ∧
      (coverage A (arr u) = coverage A (arr v) ↔ u.count true = v.count true) := by
  have hn := List.length_pos_iff.2 hne
  have hk : u.count true ≤ u.length := List.count_le_length
  have hk' : v.count true ≤ u.length := h ▸ List.count_le_length
  rw [coverage_arr, coverage_arr, h]
  exact ⟨ratio_same hn hk' hu, ratio_eq hn hk hk' hu⟩

example : [true, false, true].count true < [true, true, true].count true ∧ 2 * ([true, false, true].length : Rat) * doubles.u ≤ 1 := by
  refine ⟨by decide, ?_⟩
  simp only [doubles, List.length_cons, List.length_nil]; norm_num

/-- **C56 (minimal coverage).** Let the minimal coverage be the float written for the fraction `a / b`.  A rule passes exactly when it
activates at least this fraction of the points: rounding the limit and rounding the coverage do not matter, even at equality. -/
theorem C56_threshold {A : Machine} {M : Thresholds.Math} {getattr : String → Except Err Thresholds.Attr} {u : List Bool} {a b : Nat}
    (hne : u ≠ []) (hb : 0 < b) (hu : 2 * ((a : Rat) * u.length) * A.u ≤ 1)
    (hg : getattr "coverage" = .ok (.num (.fin (coverage A (arr u))))) :
    ∃ ans, Thresholds.call M getattr "coverage" [("coverage", [("min", .num (.fin (A.fl ((a : Rat) / b))))])] =
        (.ok ans, [("coverage", [("min", .num (.fin (A.fl ((a : Rat) / b))))])]) ∧
      (ans = true ↔ a * u.length ≤ u.count true * b) := by
  obtain ⟨ans, h1, h2⟩ := ThresholdProps.C16_accepts_partial (M := M) (getattr := getattr) (key := "coverage")
    (limits := [("coverage", [("min", .num (.fin (A.fl ((a : Rat) / b))))])]) (th := [("min", .num (.fin (A.fl ((a : Rat) / b))))])
    rfl hg (by simp) (by simp) (.inl ⟨rfl, rfl⟩) (by simp) (by
      intro p hp _
      rw [List.mem_singleton.1 hp]
      exact ⟨_, .inl rfl, by simp⟩)
  refine ⟨ans, h1, h2.trans ?_⟩
  have hlt := ratio_lt (A := A) (k := u.count true) (List.length_pos_iff.2 hne) hb hu
  rw [← coverage_arr] at hlt
  rw [← not_lt, ← hlt, not_lt]
  constructor
  · intro h
    have := (h "min" _ _ rfl (.inl rfl)).1 rfl
    simpa [Num.le] using this
  · intro h name l m hl hm
    by_cases hname : name = "min"
    · subst hname
      cases hl
      rcases hm with hm | ⟨s, hs, -⟩
      · cases hm
        exact ⟨fun _ => by simpa [Num.le] using h, by simp, by simp, by simp⟩
      · cases hs
    · simp [Thresholds.Dict.get?, Ne.symm hname] at hl

example : let u := [true, false, false, false, false, false, false, false, false, false]
    coverage doubles (arr u) = double (10 / 100) ∧ (10 : Nat) * u.length ≤ u.count true * 100 ∧
      2 * (((10 : Nat) : Rat) * u.length) * doubles.u ≤ 1 := by
  refine ⟨?_, by decide, ?_⟩
  · rw [coverage_arr]
    show double _ = _
    congr 1
    norm_num
  · simp only [doubles, List.length_cons, List.length_nil]; norm_num

/-- **C56 (success rate).** The success rate of a label is from 0 to 1, 0 exactly when no target is this class, 1 exactly when all are;
the label of more targets has the greater rate. -/
theorem C56_success {A : Machine} {y : List Label} (hne : y ≠ []) (hu : 2 * (y.length : Rat) * A.u ≤ 1) {c : Label} :
    ∃ r, successRate A c y = some r ∧ 0 ≤ r ∧ r ≤ 1 ∧ (r = 0 ↔ ∀ t ∈ y, c.eq t = false) ∧ (r = 1 ↔ ∀ t ∈ y, c.eq t = true) ∧
      ∀ c' r', successRate A c' y = some r' → (r < r' ↔ y.countP (c.eq ·) < y.countP (c'.eq ·)) := by
  have hn := List.length_pos_iff.2 hne
  have hn0 : y.length ≠ 0 := hn.ne'
  have hu' : y.length * A.u ≤ 1 := by
    have : 0 ≤ y.length * A.u := mul_nonneg (by positivity) A.u_nonneg
    linarith
  have e : ∀ c, successRate A c y = some (A.fl ((y.countP (c.eq ·) : Rat) / y.length)) := by
    intro c
    rw [Rounded.successRate, if_neg hn0, List.countP_eq_length_filter]
  have hk : ∀ c : Label, y.countP (c.eq ·) ≤ y.length := fun c => List.countP_le_length
  refine ⟨_, e c, (ratio_bounds (hk c)).1, (ratio_bounds (hk c)).2, ?_, ?_, ?_⟩
  · rw [ratio_zero hn, List.countP_eq_zero]
    simp
  · rw [ratio_one (hk c) hn hu', List.countP_eq_length]
  · intro c' r' h
    rw [e c'] at h
    cases h
    exact ratio_same hn (hk c') hu

example : let y := [Label.num (.fin 1), .num (.fin 2), .num (.fin 1)]
    successRate doubles (.num (.fin 1)) y = some (double (2 / 3)) ∧ 2 * (y.length : Rat) * doubles.u ≤ 1 := by
  refine ⟨rfl, ?_⟩
  simp only [doubles, List.length_cons, List.length_nil]; norm_num

/-- **C56 (predicted class).** With classes which are numbers, the class of a rule is a most frequent one of its activated points,
and the smallest of them, in spite of rounding. -/
theorem C56_class {A : Machine} {S : FloatStr} {u : List Bool} {y : List Label} (h : y.length = u.length)
    (ht : ∀ l ∈ activated u y, ∃ q, l = .num (.fin q)) (hne : activated u y ≠ [])
    (hu : 2 * ((activated u y).length : Rat) * A.u ≤ 1) :
    ∃ p c, classProbabilities A (arr u) y = .ok p ∧ bestClass S p = .ok c ∧ c ∈ activated u y ∧
      (∀ d ∈ activated u y, (activated u y).count d ≤ (activated u y).count c) ∧
      ∀ d ∈ activated u y, ClassLt d c → (activated u y).count d < (activated u y).count c := by
  obtain ⟨p, hp, hf⟩ := classProbabilities_spec h (.inl ht) hne
  have hn := List.length_pos_iff.2 hne
  have hn' : (0 : Rat) < (activated u y).length := by exact_mod_cast hn
  have num : ∀ a ∈ p, ∃ q, a.1 = .num (.fin q) := fun a ha => ht _ ((hf.mem _).1 (List.mem_map_of_mem ha))
  have lt_num : ∀ (T : FloatStr) (a b : Label × Rat), (∃ q, a.1 = .num (.fin q)) → (∃ q, b.1 = .num (.fin q)) →
      probaLt T a b = decide (a.2 < b.2) := by
    rintro T ⟨a, x⟩ ⟨b, z⟩ ⟨q, hq⟩ ⟨r, hr⟩
    simp only at hq hr
    subst hq hr
    rfl
  obtain ⟨c, hc, hm, h1, h2⟩ := bestClass_frequencies (S := S) hf hne (by
    intro a ha b hb
    rw [lt_num S a b (num a ha) (num b hb)]
    simp)
  refine ⟨_, c, by rw [classProbabilities_map, hp]; rfl, ?_, hm, ?_, ?_⟩
  · refine (bestClass_map (S' := S) (g := fun a => (a.1, A.fl a.2)) (fun _ => rfl) ?_).trans hc
    intro a ha b hb
    rw [lt_num S a b (num a ha) (num b hb), lt_num S (a.1, A.fl a.2) (b.1, A.fl b.2) (num a ha) (num b hb)]
    simp only [hf.freq a ha, hf.freq b hb, frequency]
    rw [decide_eq_decide, ratio_same hn List.count_le_length hu, div_lt_div_iff_of_pos_right hn']
    norm_cast
  · intro d hd
    have := h1 d hd
    rw [frequency, frequency, div_le_div_iff_of_pos_right hn'] at this
    exact_mod_cast this
  · intro d hd hlt
    have := h2 d hd hlt
    rw [frequency, frequency, div_lt_div_iff_of_pos_right hn'] at this
    exact_mod_cast this

example : let y := [Label.num (.fin 2), .num (.fin 1), .num (.fin 1), .num (.fin 2), .num (.fin 0), .num (.fin 5)]
    let u := [true, true, true, true, true, false]
    classProbabilities doubles (arr u) y = .ok [(.num (.fin 0), double (1 / 5)), (.num (.fin 1), double (2 / 5)), (.num (.fin 2), double (2 / 5))] ∧
      bestClass (fun _ => "") [(.num (.fin 0), double (1 / 5)), (.num (.fin 1), double (2 / 5)), (.num (.fin 2), double (2 / 5))] = .ok (.num (.fin 1)) ∧
      2 * ((activated u y).length : Rat) * doubles.u ≤ 1 := by
  refine ⟨by decide +kernel, by decide +kernel, ?_⟩
  simp only [doubles]
  have : (activated [true, true, true, true, true, false]
    [Label.num (.fin 2), .num (.fin 1), .num (.fin 1), .num (.fin 2), .num (.fin 0), .num (.fin 5)]).length = 5 := by decide
  rw [this]
  norm_num

/-- **C56 (probabilities).** The probabilities of the classes sum to one up to the relative error of one rounding. -/
theorem C56_sum_partial {A : Machine} {u : List Bool} {y : List Label} (h : y.length = u.length) (ht : SameType (activated u y))
    (hne : activated u y ≠ []) :
    ∃ p, classProbabilities A (arr u) y = .ok p ∧ |(p.map (·.2)).sum - 1| ≤ A.u := by
  obtain ⟨p, hp, hf⟩ := classProbabilities_spec h ht hne
  refine ⟨_, by rw [classProbabilities_map, hp]; rfl, ?_⟩
  have := sum_frequencies_error (A := A) (p := p) fun x hx => (hf.pos x hx).le
  rw [hf.sum hne, mul_one] at this
  exact this

/-- Targets of three classes -/
def threeClasses : List Label := [.num (.fin 0), .num (.fin 1), .num (.fin 2)]

example : threeClasses.length = [true, true, true].length ∧ SameType (activated [true, true, true] threeClasses) ∧
    activated [true, true, true] threeClasses ≠ [] := by
  refine ⟨rfl, .inl ?_, by decide⟩
  intro l hl
  have : l = .num (.fin 0) ∨ l = .num (.fin 1) ∨ l = .num (.fin 2) := by simpa [activated, threeClasses] using hl
  rcases this with rfl | rfl | rfl <;> exact ⟨_, rfl⟩

/-- **C56 is false of sums**: the probabilities of three equally frequent classes, as floats, do not sum to one. -/
theorem C56_sum_false : ∃ p, classProbabilities doubles (arr [true, true, true]) threeClasses = .ok p ∧ (p.map (·.2)).sum ≠ 1 :=
  ⟨[(.num (.fin 0), double (1 / 3)), (.num (.fin 1), double (1 / 3)), (.num (.fin 2), double (1 / 3))], by decide +kernel, by decide +kernel⟩

/-! ## C57: means -/

/-- **C57 (prediction).** The prediction of a regression rule is the mean of the targets of its activated points up to a relative error
of `2 n u` of the mean of their absolute values, in whatever order numpy adds them up. -/
theorem C57_mean {A : Machine} {u : List Bool} {y : List (Option Rat)} (h : y.length = u.length) (hne : present (activated u y) ≠ [])
    (hu : 2 * ((present (activated u y)).length : Rat) * A.u ≤ 1) :
    ∃ p, conditionalMean A (arr u) y = .ok (some p) ∧
      |p - meanOf (present (activated u y))| ≤
        2 * (present (activated u y)).length * A.u * meanOf ((present (activated u y)).map abs) :=
  ⟨_, conditionalMean_arr h hne, mean_error hne hu⟩

/-- Targets of three points, one of which is missing -/
def someTargets : List (Option Rat) := [some (double (1 / 10)), none, some (double (1 / 5)), some 3]

example : present (activated [true, true, true, false] someTargets) = [double (1 / 10), double (1 / 5)] ∧
    conditionalMean doubles (arr [true, true, true, false]) someTargets = .ok (some (double (double (double (1 / 10) + double (1 / 5)) / 2))) ∧
    double (double (double (1 / 10) + double (1 / 5)) / 2) ≠ meanOf [double (1 / 10), double (1 / 5)] ∧
    2 * (([double (1 / 10), double (1 / 5)] : List Rat).length : Rat) * doubles.u ≤ 1 := by
  refine ⟨by decide +kernel, by decide +kernel, by decide +kernel, ?_⟩
  simp only [doubles, List.length_cons, List.length_nil]; norm_num

/-- **C57 (stacked predictions).** The prediction computed for a column of a DataFrame is the same mean up to a relative error of
`2 n u`, with the number `n` of activated points, missing ones included. -/
theorem C57_column {A : Machine} {u : List Bool} {y : List (Option Rat)} (h : y.length = u.length) (hne : present (activated u y) ≠ [])
    (hu : 2 * ((activated u y).length : Rat) * A.u ≤ 1) :
    ∃ p, conditionalMeanColumn A (arr u) y = .ok (some p) ∧
      |p - meanOf (present (activated u y))| ≤ 2 * (activated u y).length * A.u * meanOf ((present (activated u y)).map abs) := by
  obtain ⟨m, e, hm⟩ := nanmean_error (A := A) hne
  refine ⟨m, by simp [conditionalMeanColumn, extract_arr h, bind, Except.bind, e], hm.trans ?_⟩
  have h1 := growth A.u_nonneg hu
  have h2 : 0 ≤ meanOf ((present (activated u y)).map abs) := div_nonneg (abs_sum_nonneg _) (by positivity)
  gcongr

example : conditionalMeanColumn doubles (arr [true, true, true, false]) someTargets = .ok (some (double (double (double (1 / 10) + double (1 / 5)) / 2))) ∧
    2 * ((activated [true, true, true, false] someTargets).length : Rat) * doubles.u ≤ 1 := by
  refine ⟨by decide +kernel, ?_⟩
  have : (activated [true, true, true, false] someTargets).length = 3 := by decide
  rw [this]
  simp only [doubles]; norm_num

/-- **C57 (sign, partial).** When no activated target is negative, the prediction is not negative, and it is zero only when all of them
are zero; likewise when none is positive.  Missing: targets of both signs, for which the sign of the mean can get lost
(`C57_sign_false`). -/
theorem C57_sign_partial {A : Machine} {u : List Bool} {y : List (Option Rat)} (h : y.length = u.length)
    (hne : present (activated u y) ≠ []) :
    ∃ p, conditionalMean A (arr u) y = .ok (some p) ∧
      ((∀ x ∈ present (activated u y), 0 ≤ x) → 0 ≤ p ∧ (p = 0 ↔ ∀ x ∈ present (activated u y), x = 0)) ∧
      ((∀ x ∈ present (activated u y), x ≤ 0) → p ≤ 0 ∧ (p = 0 ↔ ∀ x ∈ present (activated u y), x = 0)) := by
  refine ⟨_, conditionalMean_arr h hne, ?_⟩
  set l := present (activated u y)
  obtain ⟨d, hd⟩ := A.sum_adds l hne
  have hn : (0 : Rat) < l.length := by exact_mod_cast List.length_pos_iff.2 hne
  have hz : mean A l = 0 ↔ A.sum l = 0 := by rw [mean, fl_eq_zero, div_eq_zero_iff, or_iff_left hn.ne']
  constructor
  · intro hl
    exact ⟨fl_nonneg A (div_nonneg (hd.nonneg hl) hn.le), hz.trans (hd.eq_zero (.inl hl))⟩
  · intro hl
    exact ⟨fl_nonpos A (div_nonpos_of_nonpos_of_nonneg (hd.nonpos hl) hn.le), hz.trans (hd.eq_zero (.inr hl))⟩

example : ∀ x ∈ present (activated [true, true, true, false] someTargets), 0 ≤ x := by decide +kernel

/-- **C57 is false of signs**: the mean of these three targets is negative, and the prediction is zero. -/
theorem C57_sign_false : meanOf [10 ^ 16, -1, -10 ^ 16] < 0 ∧
    conditionalMean doubles (arr [true, true, true]) [some (10 ^ 16), some (-1), some (-10 ^ 16)] = .ok (some 0) := by
  constructor <;> decide +kernel

/-- **C57 is false of orders**: the same targets in another order give another prediction. -/
theorem C57_order_false : ∃ y y' : List (Option Rat), y.Perm y' ∧
    conditionalMean doubles (arr [true, true, true]) y = .ok (some 0) ∧
    conditionalMean doubles (arr [true, true, true]) y' = .ok (some (double (-1 / 3))) :=
  ⟨[some (10 ^ 16), some (-1), some (-10 ^ 16)], [some (10 ^ 16), some (-10 ^ 16), some (-1)],
    .cons _ (.swap _ _ _), by decide +kernel, by decide +kernel⟩

/-- **C57 (orders, partial).** Points in another order change the prediction by at most `4 n u` of the mean of the absolute values, even if
the machine adds in another way.  Missing: that the prediction does not change, which is false (`C57_order_false`). -/
theorem C57_order_partial {A A' : Machine} (hA : A'.u = A.u) {u u' : List Bool} {y y' : List (Option Rat)} (h : y.length = u.length)
    (h' : y'.length = u'.length) (hp : (u.zip y).Perm (u'.zip y')) (hne : present (activated u y) ≠ [])
    (hu : 2 * ((present (activated u y)).length : Rat) * A.u ≤ 1) :
    ∃ p p', conditionalMean A (arr u) y = .ok (some p) ∧ conditionalMean A' (arr u') y' = .ok (some p') ∧
      |p - p'| ≤ 4 * (present (activated u y)).length * A.u * meanOf ((present (activated u y)).map abs) := by
  have perm : (present (activated u y)).Perm (present (activated u' y')) := ((hp.filter _).map _).filterMap _
  have hne' : present (activated u' y') ≠ [] := by
    intro e
    rw [e] at perm
    exact hne perm.eq_nil
  refine ⟨_, _, conditionalMean_arr h hne, conditionalMean_arr h' hne', ?_⟩
  have m1 : meanOf (present (activated u' y')) = meanOf (present (activated u y)) := by
    rw [meanOf, meanOf, perm.sum_eq, perm.length_eq]
  have m2 : meanOf ((present (activated u' y')).map abs) = meanOf ((present (activated u y)).map abs) := by
    rw [meanOf, meanOf, (perm.map abs).sum_eq, (perm.map abs).length_eq]
  have e1 := mean_error hne hu
  have e2 := mean_error (A := A') hne' (by rw [hA, ← perm.length_eq]; exact hu)
  rw [m1, m2, hA, ← perm.length_eq] at e2
  have := abs_add_le (mean A (present (activated u y)) - meanOf (present (activated u y)))
    (meanOf (present (activated u y)) - mean A' (present (activated u' y')))
  rw [sub_add_sub_cancel, abs_sub_comm (meanOf _)] at this
  linarith

example : ([true, true, false].zip [some (1 : Rat), some 2, none]).Perm ([true, false, true].zip [some 2, none, some 1]) ∧
    present (activated [true, true, false] [some (1 : Rat), some 2, none]) = [1, 2] := by
  constructor <;> decide +kernel

/-- **C57 (integers).** Targets which are integers are added up without error as long as the sum of their absolute values is a number up to
which the machine has all integers (`2 ^ 53` for floats): the prediction is the float nearest to the mean, does not depend on the order, and is
neither smaller than all targets nor greater than all targets. -/
theorem C57_integers {A : Machine} {N : Int} (hN : ∀ n : Int, |n| ≤ N → A.fl n = n) {u : List Bool} {y : List (Option Rat)}
    (h : y.length = u.length) (hne : present (activated u y) ≠ []) (hi : ∀ x ∈ present (activated u y), ∃ n : Int, x = n)
    (hs : ((present (activated u y)).map abs).sum ≤ N) :
    conditionalMean A (arr u) y = .ok (some (A.fl (meanOf (present (activated u y))))) ∧
      ∀ a b, a ∈ present (activated u y) → b ∈ present (activated u y) → (∀ x ∈ present (activated u y), a ≤ x ∧ x ≤ b) →
        a ≤ A.fl (meanOf (present (activated u y))) ∧ A.fl (meanOf (present (activated u y))) ≤ b := by
  constructor
  · rw [conditionalMean_arr h hne, mean_integers hN hne hi hs]
  · intro a b ha hb hab
    have hfl : ∀ x ∈ present (activated u y), A.fl x = x := by
      intro x hx
      obtain ⟨n, rfl⟩ := hi x hx
      apply hN
      have := (le_abs_sum hx).trans hs
      exact_mod_cast this
    have hm := mean_bounds hne hab
    constructor
    · rw [← hfl a ha]; exact A.mono _ _ hm.1
    · rw [← hfl b hb]; exact A.mono _ _ hm.2

example : (∀ n : Int, |n| ≤ 2 ^ 53 → doubles.fl n = n) ∧
    (∀ x ∈ present (activated [true, true, true] [some 1, some 2, some 2]), ∃ n : Int, x = n) ∧
    ((present (activated [true, true, true] [some 1, some 2, some 2])).map abs).sum ≤ ((2 ^ 53 : Int) : Rat) := by
  refine ⟨double_int, ?_, ?_⟩
  · intro x hx
    have : x = 1 ∨ x = 2 := by simpa [activated, present] using hx
    rcases this with rfl | rfl
    · exact ⟨1, by norm_num⟩
    · exact ⟨2, by norm_num⟩
  · simp [activated, present]
    norm_num

/-- **C57 is false of bounds**: the mean of three times the same float is greater than this float. -/
theorem C57_between_false : conditionalMean doubles (arr [true, true, true]) [some (double (1 / 10)), some (double (1 / 10)), some (double (1 / 10))] =
      .ok (some (double (double (double (double (1 / 10) + double (1 / 10)) + double (1 / 10)) / 3))) ∧
    double (1 / 10) < double (double (double (double (1 / 10) + double (1 / 10)) + double (1 / 10)) / 3) := by
  constructor <;> decide +kernel

/-- **C57 (standard deviation, partial).** The variance is not negative, and when it is zero all activated targets are equal.  Missing: that it
is zero when they are, which is false (`C57_std_false`) but for integers. -/
theorem C57_std_partial {A : Machine} {u : List Bool} {y : List Rat} (h : y.length = u.length) (hne : activated u y ≠ []) :
    ∃ v, conditionalVar A (arr u) y = .ok (some v) ∧ 0 ≤ v ∧ (v = 0 → ∀ x ∈ activated u y, ∀ z ∈ activated u y, x = z) ∧
      ∀ (N : Int) (n : Int), (∀ n : Int, |n| ≤ N → A.fl n = n) → (∀ x ∈ activated u y, x = n) → (activated u y).length * |n| ≤ N → v = 0 := by
  set l := activated u y with hl
  have hpos := List.length_pos_iff.2 hne
  by_cases h1 : l.length = 1
  · refine ⟨0, by simp [conditionalVar, extract_arr h, bind, Except.bind, ← hl, h1, hne], le_refl _, ?_, fun _ _ _ _ _ => rfl⟩
    obtain ⟨x, hx⟩ := List.length_eq_one_iff.1 h1
    intro _ a ha b hb
    rw [hx, List.mem_singleton] at ha hb
    rw [ha, hb]
  · have hn : (0 : Rat) < (l.length : Rat) - 1 := by
      have : 1 < l.length := by omega
      have : (1 : Rat) < l.length := by exact_mod_cast this
      linarith
    set q := l.map fun x => A.fl (A.fl (x - mean A l) * A.fl (x - mean A l)) with hq
    have hq0 : ∀ x ∈ q, 0 ≤ x := by
      intro x hx
      obtain ⟨z, -, rfl⟩ := List.mem_map.1 hx
      exact fl_nonneg A (mul_self_nonneg _)
    obtain ⟨d, hd⟩ := A.sum_adds q (by simpa [hq] using hne)
    have hz : A.fl (A.sum q / ((l.length : Rat) - 1)) = 0 ↔ ∀ x ∈ l, x = mean A l := by
      rw [fl_eq_zero, div_eq_zero_iff, or_iff_left hn.ne', hd.eq_zero (.inl hq0), hq, List.forall_mem_map]
      apply forall₂_congr
      intro x _
      rw [fl_eq_zero, mul_self_eq_zero, fl_eq_zero, sub_eq_zero]
    refine ⟨A.fl (A.sum q / ((l.length : Rat) - 1)), ?_, fl_nonneg A (div_nonneg (hd.nonneg hq0) hn.le), ?_, ?_⟩
    · simp only [conditionalVar, extract_arr h, bind, Except.bind, ← hl]
      rw [if_neg hpos.ne', if_neg h1]
    · intro hv x hx z hz'
      rw [hz.1 hv x hx, hz.1 hv z hz']
    · intro N n hN hx hs
      rw [hz]
      have hrep : l = List.replicate l.length (n : Rat) := List.eq_replicate_iff.2 ⟨rfl, hx⟩
      have hsum : (l.map abs).sum = l.length * |(n : Rat)| := by
        rw [hrep]; simp
      have hs' : (l.map abs).sum ≤ N := by
        rw [hsum]; exact_mod_cast hs
      have hmean : meanOf l = n := by
        have := mean_bounds hne (fun x hx' => ⟨(hx x hx').ge, (hx x hx').le⟩)
        exact le_antisymm this.2 this.1
      intro x hx'
      rw [mean_integers hN hne (fun x hx' => ⟨n, hx x hx'⟩) hs', hmean, hx x hx']
      refine (hN n ?_).symm
      have h2 := (le_abs_sum hx').trans hs'
      rw [hx x hx'] at h2
      exact_mod_cast h2

example : (∀ x ∈ activated [true, false, true] [(3 : Rat), 1, 3], x = ((3 : Int) : Rat)) ∧
    ((activated [true, false, true] [(3 : Rat), 1, 3]).length : Int) * |3| ≤ 2 ^ 53 ∧
    conditionalVar doubles (arr [true, false, true]) [3, 1, 3] = .ok (some 0) := by
  refine ⟨by decide +kernel, by decide, by decide +kernel⟩

/-- **C57 (error of the variance).** The square of the standard deviation is the sum of the squared distances to the mean, divided by
the number of points minus one, up to an error of `60 n u a²` when no target exceeds `a` in absolute value. -/
theorem C57_std_error {A : Machine} {u : List Bool} {y : List Rat} {a : Rat} (h : y.length = u.length) (h2 : 2 ≤ (activated u y).length)
    (ha : ∀ x ∈ activated u y, |x| ≤ a) (hu : 100 * ((activated u y).length : Rat) * A.u ≤ 1) :
    ∃ v, conditionalVar A (arr u) y = .ok (some v) ∧ |v - varianceOf (activated u y)| ≤ 60 * (activated u y).length * A.u * a ^ 2 := by
  refine ⟨_, ?_, variance_error h2 ha hu⟩
  simp only [conditionalVar, extract_arr h, bind, Except.bind]
  rw [if_neg (by omega), if_neg (by omega)]

example : 2 ≤ (activated [true, false, true] [double (1 / 10), 1, 3]).length ∧
    (∀ x ∈ activated [true, false, true] [double (1 / 10), 1, 3], |x| ≤ 3) ∧
    100 * ((activated [true, false, true] [double (1 / 10), 1, 3]).length : Rat) * doubles.u ≤ 1 := by
  refine ⟨by decide +kernel, by decide +kernel, ?_⟩
  have : (activated [true, false, true] [double (1 / 10), 1, 3]).length = 2 := by decide +kernel
  rw [this]
  simp only [doubles]; norm_num

/-- **C57 is false of standard deviations**: three times the same target have a variance which is not zero. -/
theorem C57_std_false : ∃ v, conditionalVar doubles (arr [true, true, true]) [double (1 / 10), double (1 / 10), double (1 / 10)] = .ok (some v) ∧ 0 < v :=
  ⟨(conditionalVar doubles (arr [true, true, true]) [double (1 / 10), double (1 / 10), double (1 / 10)]).toOption.join.getD 0,
    by decide +kernel, by decide +kernel⟩

/-- **C57 (mean absolute error).** The mean absolute error has a relative error of at most `2 (n + 1) u`, and is zero exactly when all
predictions equal their targets. -/
theorem C57_mae {A : Machine} {pred y : List (Option Rat)} (h : pred.length = y.length) (hne : both pred y ≠ [])
    (hu : 2 * ((pred.length : Rat) + 1) * A.u ≤ 1) :
    ∃ m, mae A pred y = .ok (some m) ∧
      |m - meanOf ((both pred y).map fun x => |x.1 - x.2|)| ≤
        2 * (pred.length + 1) * A.u * meanOf ((both pred y).map fun x => |x.1 - x.2|) ∧
      0 ≤ m ∧ (m = 0 ↔ ∀ x ∈ both pred y, x.1 = x.2) := by
  obtain ⟨e, he, hlen, hp⟩ := errors_present (A := A) h
  have hp' : present (e.map fun x => x.map fun x => |x|) = (both pred y).map fun x => |A.fl (x.1 - x.2)| := by
    rw [present_map, hp, List.map_map]; rfl
  obtain ⟨m, hm, herr⟩ := nanmean_rounded (A := A) (k := 1) (g := fun x : Rat × Rat => |x.1 - x.2|) hne hp' (fun _ _ => abs_nonneg _) (fun _ _ => abs_nonneg _)
    fun x _ => abs_error _
  obtain ⟨m', hm', h0, hz⟩ := nanmean_zero (A := A) (l := e.map fun x => x.map fun x => |x|) (by rw [hp']; simpa using hne)
    (by rw [hp', List.forall_mem_map]; exact fun _ _ => abs_nonneg _)
  rw [hm] at hm'
  cases hm'
  refine ⟨m, by simp only [Rounded.mae, he, bind, Except.bind, hm], herr.trans ?_, h0, hz.trans ?_⟩
  · rw [List.length_map, hlen]
    have h1 := growth A.u_nonneg (n := pred.length + 1) (by push_cast; exact hu)
    push_cast at h1
    have h2 : 0 ≤ meanOf ((both pred y).map fun x => |x.1 - x.2|) := by
      refine div_nonneg (List.sum_nonneg ?_) (by positivity)
      rw [List.forall_mem_map]
      exact fun _ _ => abs_nonneg _
    gcongr
  · rw [hp', List.forall_mem_map]
    apply forall₂_congr
    intro x _
    rw [abs_eq_zero, fl_eq_zero, sub_eq_zero]

/-- Predictions of three points, one of which is missing -/
def somePredictions : List (Option Rat) := [some (double (1 / 3)), none, some 1, some 3]

example : both somePredictions someTargets = [(double (1 / 3), double (1 / 10)), (1, double (1 / 5)), (3, 3)] ∧
    2 * ((somePredictions.length : Rat) + 1) * doubles.u ≤ 1 ∧ 2 * ((somePredictions.length : Rat) + 3) * doubles.u ≤ 1 := by
  refine ⟨by decide +kernel, ?_, ?_⟩ <;> simp only [doubles, somePredictions, List.length_cons, List.length_nil] <;> norm_num

/-- **C57 (mean squared error).** The mean squared error has a relative error of at most `2 (n + 3) u`, and is zero exactly when all predictions
equal their targets. -/
theorem C57_mse {A : Machine} {pred y : List (Option Rat)} (h : pred.length = y.length) (hne : both pred y ≠ [])
    (hu : 2 * ((pred.length : Rat) + 3) * A.u ≤ 1) :
    ∃ m, mse A pred y = .ok (some m) ∧
      |m - meanOf ((both pred y).map fun x => (x.1 - x.2) ^ 2)| ≤
        2 * (pred.length + 3) * A.u * meanOf ((both pred y).map fun x => (x.1 - x.2) ^ 2) ∧
      0 ≤ m ∧ (m = 0 ↔ ∀ x ∈ both pred y, x.1 = x.2) := by
  obtain ⟨e, he, hlen, hp⟩ := errors_present (A := A) h
  have hp' : present (e.map fun x => x.map fun x => A.fl (x * x)) =
      (both pred y).map fun x => A.fl (A.fl (x.1 - x.2) * A.fl (x.1 - x.2)) := by
    rw [present_map, hp, List.map_map]; rfl
  obtain ⟨m, hm, herr⟩ := nanmean_rounded (A := A) (k := 3) (g := fun x : Rat × Rat => (x.1 - x.2) ^ 2) hne hp' (fun _ _ => sq_nonneg _)
    (fun _ _ => fl_nonneg A (mul_self_nonneg _)) fun x _ => square_error _
  obtain ⟨m', hm', h0, hz⟩ := nanmean_zero (A := A) (l := e.map fun x => x.map fun x => A.fl (x * x)) (by rw [hp']; simpa using hne)
    (by rw [hp', List.forall_mem_map]; exact fun _ _ => fl_nonneg A (mul_self_nonneg _))
  rw [hm] at hm'
  cases hm'
  refine ⟨m, by simp only [Rounded.mse, he, bind, Except.bind, hm], herr.trans ?_, h0, hz.trans ?_⟩
  · rw [List.length_map, hlen]
    have h1 := growth A.u_nonneg (n := pred.length + 3) (by push_cast; exact hu)
    push_cast at h1
    have h2 : 0 ≤ meanOf ((both pred y).map fun x => (x.1 - x.2) ^ 2) := by
      refine div_nonneg (List.sum_nonneg ?_) (by positivity)
      rw [List.forall_mem_map]
      exact fun _ _ => sq_nonneg _
    gcongr
  · rw [hp', List.forall_mem_map]
    apply forall₂_congr
    intro x _
    rw [fl_eq_zero, mul_self_eq_zero, fl_eq_zero, sub_eq_zero]

example : ∃ m, mse doubles somePredictions someTargets = .ok (some m) ∧
    m ≠ meanOf ((both somePredictions someTargets).map fun x => (x.1 - x.2) ^ 2) :=
  ⟨(mse doubles somePredictions someTargets).toOption.join.getD 0, by decide +kernel, by decide +kernel⟩

end Verif.RoundedProps
