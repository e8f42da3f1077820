import Verif.MeetLemmas
import Verif.CoverageLemmas
import Verif.RuleOpsLemmas
import Verif.RuleProps
import Verif.RuleStatProps

/-!
# Properties of intersections of conditions (C45) and of rules (C46)
-/

namespace Verif.MeetProps

open Verif Rule Spec Cond ConditionProps

/-! ## C45 -/

/-- **C45 (order), partial.** `a & b` and `b & a` are the same condition, or both raise `IndexError`.  Missing: bounds which are
NaN (`C45_nan_false`). -/
theorem C45_commutative_partial {by_ : String} (hb : by_ = "index" ∨ by_ = "name") {a b : Cond} {as bs : List Feature}
    (ha : Reach a) (hbr : Reach b) (has : Shows a as) (hbs : Shows b bs) (hna : NoNaN as) (hnb : NoNaN bs) :
    Cond.and by_ a b = Cond.and by_ b a := by
  obtain ⟨as', ra⟩ := reach_regular ha
  obtain ⟨bs', rb⟩ := reach_regular hbr
  cases Shows.unique has ra.shows
  cases Shows.unique hbs rb.shows
  exact and_comm hb ra rb hna hnb

/-- **C45 (grouping), partial.** `(a & b) & c` and `a & (b & c)` are the same condition, or both raise `IndexError`.  Missing:
bounds which are NaN (`C45_nan_false`). -/
theorem C45_associative_partial {by_ : String} (hb : by_ = "index" ∨ by_ = "name") {a b c : Cond} {as bs cs : List Feature}
    (ha : Reach a) (hbr : Reach b) (hc : Reach c) (has : Shows a as) (hbs : Shows b bs) (hcs : Shows c cs)
    (hna : NoNaN as) (hnb : NoNaN bs) (hnc : NoNaN cs) :
    (do let d ← Cond.and by_ a b; Cond.and by_ d c) = (do let d ← Cond.and by_ b c; Cond.and by_ a d) := by
  obtain ⟨as', ra⟩ := reach_regular ha
  obtain ⟨bs', rb⟩ := reach_regular hbr
  obtain ⟨cs', rc⟩ := reach_regular hc
  cases Shows.unique has ra.shows
  cases Shows.unique hbs rb.shows
  cases Shows.unique hcs rc.shows
  exact and_assoc hb ra rb rc hna hnb hnc

/-- **C45 (repetition).** `c & c` succeeds and has exactly the features and bounds of `c`, so it is equal to `c` and selects the
same rows. -/
theorem C45_idempotent {by_ : String} (hb : by_ = "index" ∨ by_ = "name") {a : Cond} {as : List Feature}
    (ha : Reach a) (has : Shows a as) :
    ∃ c cs, Cond.and by_ a a = .ok c ∧ Shows c cs ∧ cs.Perm as ∧ (∀ xs, Cond.evaluate c xs = Cond.evaluate a xs) ∧
      (∀ xs, evaluateFrame c xs = evaluateFrame a xs) ∧ ∀ H, Cond.eq H c a = .ok true := by
  obtain ⟨as', ra⟩ := reach_regular ha
  cases Shows.unique has ra.shows
  obtain ⟨c, hc, -⟩ := sort_shows (by_ := by_) ra.shows (by rcases hb with h | h <;> simp [h])
  have rc := ra.sort hc
  have h := Cond.and_self hb ra
  rw [hc] at h
  exact ⟨c, _, h, rc.shows, sortF_perm _ _,
    C12_order_irrelevant (Reach.and hb ha ha h) ha rc.shows has (sortF_perm _ _)⟩

/-- `two & one` and `one & two`; the third condition brings a new feature. -/
example : Reach two ∧ Reach one ∧ Reach never ∧ Shows never [⟨"z", 7, .fin 2, .fin 1⟩] ∧
    Cond.and "index" one two = Cond.and "index" two one ∧
    (do let d ← Cond.and "index" two one; Cond.and "index" d never) = .ok
      { indexes := some [0, 2, 7], bmins := some [.fin 0, .fin 1, .fin 2], bmaxs := some [.fin 5, .fin 3, .fin 1],
        names := some ["a", "b", "z"], impossible := true } := by
  refine ⟨two_reach, one_reach, never_reach, ⟨rfl, rfl, rfl, rfl⟩, by decide +kernel, by decide +kernel⟩

/-- One feature with a lower bound which is NaN. -/
def unknown : Cond :=
  { indexes := some [0], bmins := some [.nan], bmaxs := some [.fin 5], names := some ["a"], impossible := false }

theorem unknown_reach : Reach unknown :=
  .init (by_ := "index") (i := some [.int 0]) (lo := some [.float .nan]) (hi := some [.int 5]) (n := some [.str "a"])
    (s := true) (by decide +kernel)

/-- One feature, from 3 to 5. -/
def upper : Cond :=
  { indexes := some [0], bmins := some [.fin 3], bmaxs := some [.fin 5], names := some ["a"], impossible := false }

theorem upper_reach : Reach upper :=
  .init (by_ := "index") (i := some [.int 0]) (lo := some [.int 3]) (hi := some [.int 5]) (n := some [.str "a"])
    (s := true) (by decide +kernel)

/-- **C45 is false with NaN bounds**: the order and the grouping decide which lower bound is left. -/
theorem C45_nan_false :
    (∃ a b : Cond, Reach a ∧ Reach b ∧ (Cond.and "index" a b).isOk = true ∧
      Cond.and "index" a b ≠ Cond.and "index" b a) ∧
    ∃ a b c : Cond, Reach a ∧ Reach b ∧ Reach c ∧ (do let d ← Cond.and "index" a b; Cond.and "index" d c).isOk = true ∧
      (do let d ← Cond.and "index" a b; Cond.and "index" d c) ≠
        (do let d ← Cond.and "index" b c; Cond.and "index" a d) :=
  ⟨⟨one, unknown, one_reach, unknown_reach, by decide +kernel, by decide +kernel⟩,
    one, unknown, upper, one_reach, unknown_reach, upper_reach, by decide +kernel, by decide +kernel⟩

/-! ## C46 -/

/-- **C46 (activation).** The activation of `r1 & r2` marks exactly the points which both rules activate. -/
theorem C46_activation {E : Env} {by_ : String} {fits : List Nat → List Nat → Except Err Unit} {r₁ r₂ r : Rule}
    {u v : List Bool} (hu : r₁.act = some (arr u)) (hv : r₂.act = some (arr v)) (h : Rule.and E by_ fits r₁ r₂ = .ok r) :
    u.length = v.length ∧ r.act = some (arr (List.zipWith (· && ·) u v)) := by
  obtain ⟨c, x, y, -, h1, h2, hl, -, hm⟩ := and_ok h
  rw [hu] at h1
  rw [hv] at h2
  cases h1
  cases h2
  refine ⟨by simpa [arr] using hl, ?_⟩
  rw [(make_ok hm).2.1, (mul_arr u v).1]

/-- **C46 (condition and activation fit together), partial.** The condition of `r1 & r2` selects exactly the rows which both
conditions select, on every array and DataFrame; in particular, if both activations are those of the features `xs`, the
activation of `r1 & r2` is what evaluating it on `xs` gives.  Missing: bounds which are NaN (see C13). -/
theorem C46_evaluate_partial {E : Env} {by_ : String} (hb : by_ = "index" ∨ by_ = "name")
    {fits : List Nat → List Nat → Except Err Unit} {r₁ r₂ r : Rule}
    {as bs : List Feature} (ha : Reach r₁.cond) (hbr : Reach r₂.cond) (has : Shows r₁.cond as) (hbs : Shows r₂.cond bs)
    (hna : NoNaN as) (hnb : NoNaN bs) (h : Rule.and E by_ fits r₁ r₂ = .ok r) {xs : Xs} {u v : List Bool}
    (h1 : Rule.evaluate r₁.cond xs = .ok (arr u)) (h2 : Rule.evaluate r₂.cond xs = .ok (arr v)) :
    Rule.evaluate r.cond xs = .ok (arr (List.zipWith (· && ·) u v)) ∧
      (r₁.act = some (arr u) → r₂.act = some (arr v) → ∃ w, r.act = some w ∧ Rule.evaluate r.cond xs = .ok w) := by
  obtain ⟨c, x, y, hc, -, -, -, -, hm⟩ := and_ok h
  have he := evaluate_and hb ha hbr has hbs hna hnb hc h1 h2
  rw [← (make_ok hm).1] at he
  exact ⟨he, fun k1 k2 => ⟨_, (C46_activation k1 k2 h).2, he⟩⟩

/-- **C46 (a new rule).** `r1 & r2` has no prediction nor any other figure, is not fitted, and is good exactly when its coverage
is within the limits; what the operands predicted and whether they were good does not count. -/
theorem C46_new {E : Env} {by_ : String} {fits : List Nat → List Nat → Except Err Unit} {r₁ r₂ r : Rule}
    (h : Rule.and E by_ fits r₁ r₂ = .ok r) :
    r.prediction = .none ∧ r.std = .none ∧ r.sign = .none ∧ r.zscore = .none ∧ r.criterion = .none ∧
      r.trainSize = .none ∧ r.testSize = .none ∧ r.fitted = false ∧ r.evaluated = false ∧
      (E.thresholds = none → r.good = true) ∧
      ∀ t, E.thresholds = some t → (r.good = true → accepts E t r "coverage" = .ok true) ∧
        (r.good = false → r.badBecause = some "coverage" ∧
          accepts E t { r with good := true, badBecause := none } "coverage" = .ok false) := by
  obtain ⟨c, x, y, -, -, -, -, -, hm⟩ := and_ok h
  obtain ⟨-, -, -, h1, h2, h3, h4, h5, h6, h7, h8, h9, h10, h11⟩ := make_ok hm
  exact ⟨h1, h2, h3, h4, h5, h6, h7, h8, h9, h10, h11⟩

/-- **C46 (coverage).** The coverage of `r1 & r2` is the fraction of points which both activate; it is at most the fraction
which each of them activates. -/
theorem C46_coverage {E : Env} {by_ : String} {fits : List Nat → List Nat → Except Err Unit} {r₁ r₂ r : Rule}
    {u v : List Bool} (hu : r₁.act = some (arr u)) (hv : r₂.act = some (arr v)) (hne : u ≠ [])
    (h : Rule.and E by_ fits r₁ r₂ = .ok r) :
    ∃ q : Rat, r.getCoverage = .ok (.num (.fin q)) ∧ q * u.length = (List.zipWith (· && ·) u v).count true ∧
      q * u.length ≤ u.count true ∧ q * u.length ≤ v.count true := by
  obtain ⟨hl, ha⟩ := C46_activation hu hv h
  obtain ⟨c, x, y, -, -, -, -, -, hm⟩ := and_ok h
  have hpos : (0 : Rat) < u.length := by
    have := List.length_pos_iff.2 hne
    exact_mod_cast this
  have hlen : (arr (List.zipWith (· && ·) u v)).length = u.length := by simp [arr, hl]
  have e : ((List.zipWith (· && ·) u v).count true : Rat) / u.length * u.length =
      (List.zipWith (· && ·) u v).count true := div_mul_cancel₀ _ hpos.ne'
  refine ⟨((List.zipWith (· && ·) u v).count true : Rat) / u.length, ?_, e, ?_, ?_⟩
  · unfold getCoverage
    rw [ha, (make_ok hm).2.2.1]
    simp only [hlen, nones_arr]
    rw [if_neg (by simpa using hne)]
  · rw [e]; exact_mod_cast (count_both u v).1
  · rw [e]; exact_mod_cast (count_both u v).2

/-- **C46 (fit).** Fitting `r1 & r2`, without giving features, predicts the mean of the targets of the points which both rules
activate. -/
theorem C46_fit {E E' : Env} {by_ : String} {fits : List Nat → List Nat → Except Err Unit} {r₁ r₂ r r' : Rule}
    {u v : List Bool} {y : List (Option Rat)} {force : Bool} {kw : Kw} (hu : r₁.act = some (arr u)) (hv : r₂.act = some (arr v))
    (h : Rule.and E by_ fits r₁ r₂ = .ok r) (hk : E'.kind = .regression) (hl : y.length = u.length)
    (hf : fit E' (RuleStatProps.targets y) none force kw r = (.ok (), r')) (hg : r'.good = true ∨ force = true)
    (hne : present (activated (List.zipWith (· && ·) u v) y) ≠ []) :
    ∃ m : Rat, r'.prediction = .label (.num (.fin m)) ∧
      m * (present (activated (List.zipWith (· && ·) u v) y)).length =
        (present (activated (List.zipWith (· && ·) u v) y)).sum := by
  obtain ⟨hl', ha⟩ := C46_activation hu hv h
  obtain ⟨m, h1, h2, -⟩ := (RuleStatProps.C19_prediction (xs := none) (u := List.zipWith (· && ·) u v) hk
    (show r.fitted = false from (C46_new h).2.2.2.2.2.2.2.1) ha (by simp [hl, hl']) hf hg).1 hne
  exact ⟨m, h1, h2⟩

/-- **C46 (when it fails).** `r1 & r2` raises `IndexError` when the conditions disagree on the column of a feature, otherwise
`TypeError` when the first rule has no activation, `AttributeError` when only the second has none, and `ValueError` when the
activations have different lengths.  If none of this is the case and the result can be stored, only the check of the
coverage can raise. -/
theorem C46_fails {E : Env} {by_ : String} (hb : by_ = "index" ∨ by_ = "name")
    {fits : List Nat → List Nat → Except Err Unit} {r₁ r₂ : Rule}
    {as bs : List Feature} (ha : Reach r₁.cond) (hbr : Reach r₂.cond) (has : Shows r₁.cond as) (hbs : Shows r₂.cond bs) :
    (Disagree as bs → Rule.and E by_ fits r₁ r₂ = .error .indexError) ∧
    (¬ Disagree as bs →
      (r₁.act = none → Rule.and E by_ fits r₁ r₂ = .error .typeError) ∧
      (∀ x, r₁.act = some x → r₂.act = none → Rule.and E by_ fits r₁ r₂ = .error .attributeError) ∧
      ∀ x y, r₁.act = some x → r₂.act = some y →
        (x.length ≠ y.length → Rule.and E by_ fits r₁ r₂ = .error .valueError) ∧
        (x.length = y.length → (∀ e, fits x y = .error e → Rule.and E by_ fits r₁ r₂ = .error e) ∧
          (fits x y = .ok () → E.thresholds = none → ∃ r, Rule.and E by_ fits r₁ r₂ = .ok r))) := by
  have key := C13_index_error hb ha hbr has hbs
  constructor
  · intro hd
    rcases key with ⟨_, h⟩ | ⟨h, _⟩
    · simp [Rule.and, h, bind, Except.bind]
    · exact absurd hd h
  · intro hd
    rcases key with ⟨h, _⟩ | ⟨_, c, hc⟩
    · exact absurd h hd
    · refine ⟨fun h1 => by simp [Rule.and, hc, h1, meetAct, bind, Except.bind],
        fun x h1 h2 => by simp [Rule.and, hc, h1, h2, meetAct, bind, Except.bind], fun x y h1 h2 => ⟨fun hl => ?_, fun hl => ⟨?_, ?_⟩⟩⟩
      · simp [Rule.and, hc, h1, h2, meetAct, bind, Except.bind, hl]
      · intro e he
        simp [Rule.and, hc, h1, h2, meetAct, bind, Except.bind, hl, he]
      · intro he ht
        refine ⟨(make E c (some (List.zipWith (fun p q => p * q % 256) x y))).2, ?_⟩
        simp [Rule.and, hc, h1, h2, meetAct, bind, Except.bind, hl, he, make, check, ht]

/-- **C46 (order and grouping), partial.** For rules which have an activation, and as far as results can be stored: `r1 & r2` is
the same as `r2 & r1`, when both rules are of the same class.  Missing: bounds which are NaN (`C45_nan_false`). -/
theorem C46_commutative_partial {E : Env} {by_ : String} (hb : by_ = "index" ∨ by_ = "name")
    {fits : List Nat → List Nat → Except Err Unit} (hfits : ∀ x y, fits x y = fits y x) {r₁ r₂ : Rule} {x y : List Nat}
    {as bs : List Feature} (ha : Reach r₁.cond) (hbr : Reach r₂.cond) (has : Shows r₁.cond as) (hbs : Shows r₂.cond bs)
    (hna : NoNaN as) (hnb : NoNaN bs) (h1 : r₁.act = some x) (h2 : r₂.act = some y) :
    Rule.and E by_ fits r₁ r₂ = Rule.and E by_ fits r₂ r₁ := by
  have hz : List.zipWith (fun p q => p * q % 256) x y = List.zipWith (fun p q => p * q % 256) y x :=
    List.zipWith_comm_of_comm fun p q => by rw [Nat.mul_comm]
  simp only [Rule.and, C45_commutative_partial hb ha hbr has hbs hna hnb, h1, h2, meetAct, hfits x y, hz, ne_comm]

/-- The rule with the condition `c` and the activation of some rows of two columns. -/
def ruleOf (c : Cond) (v : List Nat) : Rule := blank c (some v)

/-- Two columns "a" and "b", by position 0 and 2. -/
def rows3 : Xs := .arr ⟨3, [[.fin 0, .fin 9, .fin 2], [.fin 7, .fin 9, .fin 2], [.fin 1, .fin 9, .fin 3], [.fin 1, .fin 9, .fin 8]]⟩

/-- Two rules activated by `rows3`, their intersection, which half of the rows activate, and its prediction after `fit`. -/
example :
    let r₁ := ruleOf two [1, 1, 1, 0]
    let r₂ := ruleOf one [1, 0, 1, 1]
    let E := RuleProps.someEnv .regression
    Reach r₁.cond ∧ Reach r₂.cond ∧ Rule.evaluate two rows3 = .ok (arr [true, true, true, false]) ∧
      Rule.evaluate one rows3 = .ok (arr [true, false, true, true]) ∧
      ∃ r, Rule.and E "index" (fun _ _ => .ok ()) r₁ r₂ = .ok r ∧ r.act = some [1, 0, 1, 0] ∧ r.good = true ∧
        Rule.evaluate r.cond rows3 = .ok [1, 0, 1, 0] ∧
        (fit E (RuleStatProps.targets [some 2, some 3, some 4, none]) none true {} r).1 = .ok () ∧
        (fit E (RuleStatProps.targets [some 2, some 3, some 4, none]) none true {} r).2.prediction = .label (.num (.fin 3)) := by
  refine ⟨two_reach, one_reach, by decide +kernel, by decide +kernel, { ruleOf
    { indexes := some [0, 2], bmins := some [.fin 0, .fin 1], bmaxs := some [.fin 5, .fin 3],
      names := some ["a", "b"], impossible := false } [1, 0, 1, 0] with log := [true] }, ?_⟩
  decide +kernel

/-- The four ways to fail. -/
example :
    let E := RuleProps.someEnv .regression
    let ok := fun _ _ : List Nat => (Except.ok () : Except Err Unit)
    Rule.and E "index" ok (blank two none) (ruleOf one [1]) = .error .typeError ∧
    Rule.and E "index" ok (ruleOf two [1]) (blank one none) = .error .attributeError ∧
    Rule.and E "index" ok (ruleOf two [1]) (ruleOf one [1, 1]) = .error .valueError ∧
    Rule.and E "index" ok (ruleOf two [1]) (ruleOf { one with indexes := some [1] } [1]) = .error .indexError := by
  decide +kernel

/-- **C46, rules without activation.** The conditions of two rules can be combined before anything is fitted, the rules cannot:
`&` raises `TypeError`. -/
theorem C46_unfitted_false :
    ∃ (E : Env) (r₁ r₂ : Rule) (c : Cond), (make E two none) = (.ok (), r₁) ∧ (make E one none) = (.ok (), r₂) ∧
      Cond.and "index" r₁.cond r₂.cond = .ok c ∧ Rule.and E "index" (fun _ _ => .ok ()) r₁ r₂ = .error .typeError :=
  ⟨RuleProps.someEnv .regression, _, _, _, rfl, rfl, rfl, by decide +kernel⟩

end Verif.MeetProps
