import Verif.RuleLemmas

/-!
# What `fit` computes
-/

namespace Verif.Rule

open Verif Thresholds

/-- The rule without what threshold checks change. -/
def data (r : Rule) : Rule := { r with good := true, badBecause := none, log := [] }

theorem ofExcept_ok {σ α} {x : Except Err α} {a : α} {s s' : σ} (h : (Py.ofExcept x : Py σ α) s = (.ok a, s')) :
    x = .ok a ∧ s = s' := by
  rw [Py.ofExcept_run] at h
  exact ⟨congrArg Prod.fst h, congrArg Prod.snd h⟩

theorem modify_ok {σ} {f : σ → σ} {s s' : σ} {u : Unit} (h : Py.modify f s = (.ok u, s')) : f s = s' :=
  congrArg Prod.snd h

theorem checkOne_data (E : Env) (t : Limits) (name : String) (r : Rule) : (checkOne E t name r).2.data = r.data := by
  rw [checkOne_run]
  split <;> rfl

theorem check_data (E : Env) (name : String) (r : Rule) : (check E name r).2.data = r.data := by
  unfold check
  cases E.thresholds with
  | none => rfl
  | some t =>
    simp only
    rw [Py.bind_run]
    have := checkOne_data E t name r
    rcases hc : checkOne E t name r with ⟨x, r'⟩
    rw [hc] at this
    cases x <;> exact this

theorem checkEach_data (E : Env) (t : Limits) (l : List String) (r : Rule) : (checkEach E t l r).2.data = r.data := by
  induction l generalizing r with
  | nil => rfl
  | cons a l ih =>
    unfold checkEach
    rw [Py.bind_run]
    have := checkOne_data E t a r
    rcases hc : checkOne E t a r with ⟨x, r'⟩
    rw [hc] at this
    cases x with
    | error e => exact this
    | ok b =>
      cases b
      · exact this
      · exact (ih r').trans this

theorem checkAll_data (E : Env) (r : Rule) : (checkAll E r).2.data = r.data := by
  unfold checkAll
  cases E.thresholds with
  | none => rfl
  | some t => exact checkEach_data _ _ _ _

theorem checkIfGood_data (E : Env) (name : String) (r : Rule) : (checkIfGood E name r).2.data = r.data := by
  unfold checkIfGood
  rw [Py.bind_run]
  simp only [Py.get_run]
  split
  · exact check_data _ _ _
  · rfl

theorem checkAllIfGood_data (E : Env) (r : Rule) : (checkAllIfGood E r).2.data = r.data := by
  unfold checkAllIfGood
  rw [Py.bind_run]
  simp only [Py.get_run]
  split
  · exact checkAll_data _ _
  · rfl

/-- Thresholds see the data and the flags only. -/
theorem accepts_log (E : Env) (t : Limits) (r : Rule) (l : List Bool) (name : String) :
    accepts E t { r with log := l } name = accepts E t r name := rfl

theorem accepts_fitted (E : Env) (t : Limits) (r : Rule) (b : Bool) (name : String) :
    accepts E t { r with fitted := b } name = accepts E t r name := rfl

theorem accepts_evaluated (E : Env) (t : Limits) (r : Rule) (b : Bool) (name : String) :
    accepts E t { r with evaluated := b } name = accepts E t r name := rfl

theorem checkEach_good {E : Env} {t : Limits} {l : List String} {r r' : Rule} (h : checkEach E t l r = (.ok (), r'))
    (hg : r'.good = true) : (∀ a ∈ l, accepts E t r a = .ok true) ∧ ∃ k, r' = { r with log := k } := by
  induction l generalizing r with
  | nil => cases h; exact ⟨by simp, r'.log, rfl⟩
  | cons a l ih =>
    unfold checkEach at h
    obtain ⟨b, r1, h1, h2⟩ := Py.bind_eq_ok h
    rw [checkOne_run] at h1
    cases ha : r.accepts E t a with
    | error e => simp [ha] at h1
    | ok b' =>
      cases b'
      · simp only [ha] at h1
        cases h1
        simp only [Bool.false_eq_true, if_false, Py.pure_run] at h2
        cases h2
        cases hg
      · simp only [ha] at h1
        cases h1
        obtain ⟨h3, k, h4⟩ := ih (by simpa using h2)
        refine ⟨?_, k, h4⟩
        intro c hc
        rcases List.mem_cons.1 hc with rfl | hc
        · exact ha
        · exact (accepts_log E t r _ c).symm.trans (h3 c hc)

theorem checkAllIfGood_good {E : Env} {t : Limits} {r r' : Rule} (ht : E.thresholds = some t)
    (h : checkAllIfGood E r = (.ok (), r')) (hg : r'.good = true) :
    ∀ a ∈ E.names, accepts E t r' a = .ok true := by
  unfold checkAllIfGood at h
  rw [Py.bind_run] at h
  simp only [Py.get_run] at h
  split at h
  · simp only [checkAll, ht] at h
    obtain ⟨h1, k, rfl⟩ := checkEach_good h hg
    intro a ha
    rw [accepts_log]
    exact h1 a ha
  · next hb => cases h; exact absurd hg hb

theorem Keeps.good {α} {m : Py Rule α} (h : Keeps m) {r r' : Rule} {x : Except Err α} (hm : m r = (x, r'))
    (hg : r'.good = true) : r.good = true := by
  obtain ⟨l, hl⟩ := h r
  rw [hm] at hl
  have := hl.2.1
  rw [hg] at this
  simp at this
  exact this.1

theorem attrLoop_cons {E : Env} {compute : String → Py Rule Unit} (hk : ∀ a, Keeps (compute a)) {force : Bool} {a : String}
    {l : List String} {r r' : Rule} (h : attrLoop E compute force (a :: l) r = (.ok (), r'))
    (hg : r'.good = true ∨ force = true) :
    ∃ r1 r2, compute a r = (.ok (), r1) ∧ r2.data = r1.data ∧ attrLoop E compute force l r2 = (.ok (), r') := by
  have hgood : r.good = true ∨ force = true := hg.imp_left fun g => (keeps_attrLoop E hk force (a :: l)).good h g
  unfold attrLoop at h
  rw [Py.bind_run] at h
  simp only [Py.get_run] at h
  rw [if_neg (by rcases hgood with g | g <;> simp [g])] at h
  obtain ⟨_, r1, h1, h⟩ := Py.bind_eq_ok h
  obtain ⟨_, r2, h2, h⟩ := Py.bind_eq_ok h
  refine ⟨r1, r2, h1, ?_, h⟩
  have := checkIfGood_data E a r1
  rwa [h2] at this

theorem calcActivation_ok {E : Env} {xs : Xs} {r r' : Rule} (h : calcActivation E (some xs) r = (.ok (), r'))
    (hx : xs.length ≠ 0) :
    ∃ v, r.evaluateActivation E xs = .ok v ∧ r'.data = { r.data with act := some v, actCoverage := none } := by
  unfold calcActivation at h
  simp only [if_neg hx] at h
  rw [Py.bind_run] at h
  simp only [Py.get_run] at h
  obtain ⟨v, r1, h1, h⟩ := Py.bind_eq_ok h
  obtain ⟨e1, rfl⟩ := ofExcept_ok h1
  obtain ⟨_, r2, h2, h⟩ := Py.bind_eq_ok h
  obtain rfl := modify_ok h2
  refine ⟨v, e1, ?_⟩
  have := check_data E "coverage" { r with act := some v, actCoverage := none }
  rw [h] at this
  exact this

/-- `fit(y, xs)` is not skipped. -/
def Runs (r : Rule) : Option Xs → Prop
  | some xs => xs.length ≠ 0
  | none => r.fitted = false

/-- `v` is the activation vector which `fit(y, xs)` works with. -/
def Uses (E : Env) (r : Rule) : Option Xs → List Nat → Prop
  | some xs, v => r.evaluateActivation E xs = .ok v
  | none, v => r.act = some v

theorem calcActivation_uses {E : Env} {xs : Option Xs} {r r' : Rule} (h : calcActivation E xs r = (.ok (), r'))
    (hx : Runs r xs) :
    ∃ v, Uses E r xs v ∧ r'.data = { r.data with act := some v, actCoverage := if xs.isSome then none else r.actCoverage } := by
  cases xs with
  | some x => exact calcActivation_ok h hx
  | none =>
    unfold calcActivation at h
    simp only at h
    rw [Py.bind_run] at h
    simp only [Py.get_run] at h
    cases hv : r.act with
    | none => simp [hv] at h
    | some v =>
      simp [hv] at h
      subst h
      refine ⟨v, hv, ?_⟩
      have : r.data.act = some v := hv
      rw [← this]
      rfl

theorem calcTrain_size {E : Env} {y : List Label} {kw : Kw} {r r' : Rule}
    (h : calcTrain E y kw "train_set_size" r = (.ok (), r')) :
    r'.data = { r.data with trainSize := .num (.fin y.length) } := by
  simp only [calcTrain, if_true, calcTrainSetSize, Py.modify_run] at h
  cases h
  rfl

theorem calcPrediction_regression {E : Env} {y : List Label} {r r' : Rule} {v : List Nat} (hk : E.kind = .regression)
    (hv : r.act = some v) (h : calcPrediction E y r = (.ok (), r')) :
    ∃ ys m, numbers y = .ok ys ∧ RFun.conditionalMean v ys = .ok m ∧
      r'.data = { r.data with prediction := .label (.num m) } := by
  unfold calcPrediction at h
  rw [Py.bind_run] at h
  simp only [Py.get_run, hk, hv] at h
  obtain ⟨ys, r1, h1, h⟩ := Py.bind_eq_ok h
  obtain ⟨m, r2, h2, h⟩ := Py.bind_eq_ok h
  obtain ⟨_, r3, h3, h⟩ := Py.bind_eq_ok h
  obtain ⟨e1, rfl⟩ := ofExcept_ok h1
  obtain ⟨e2, rfl⟩ := ofExcept_ok h2
  obtain rfl := modify_ok h3
  refine ⟨ys, m, e1, e2, ?_⟩
  have := check_data E "prediction" { r with prediction := .label (.num m) }
  rw [h] at this
  exact this

theorem calcPrediction_classification {E : Env} {y : List Label} {r r' : Rule} (hk : E.kind = .classification)
    (h : calcPrediction E y r = (.ok (), r')) :
    ∃ v p, r.activation = some v ∧ RFun.classProbabilities v y = .ok p ∧
      r'.data = { r.data with prediction := .probs p } := by
  unfold calcPrediction at h
  rw [Py.bind_run] at h
  simp only [Py.get_run, hk] at h
  cases hv : r.activation with
  | none => simp [hv] at h
  | some v =>
    simp only [hv] at h
    obtain ⟨p, r2, h2, h⟩ := Py.bind_eq_ok h
    obtain ⟨_, r3, h3, h⟩ := Py.bind_eq_ok h
    obtain ⟨e2, rfl⟩ := ofExcept_ok h2
    obtain rfl := modify_ok h3
    refine ⟨v, p, rfl, e2, ?_⟩
    have := check_data E "prediction" { r with prediction := .probs p }
    rw [h] at this
    exact this

theorem calcStd_ok {E : Env} {y : List Label} {r r' : Rule} {v : List Nat} (hv : r.act = some v)
    (h : calcStd E y r = (.ok (), r')) :
    ∃ ys m, numbers y = .ok ys ∧ RFun.conditionalVar v ys = .ok m ∧ r'.data = { r.data with std := .num (E.sqrt m) } := by
  unfold calcStd at h
  rw [Py.bind_run] at h
  simp only [Py.get_run, hv] at h
  obtain ⟨ys, r1, h1, h⟩ := Py.bind_eq_ok h
  obtain ⟨m, r2, h2, h⟩ := Py.bind_eq_ok h
  obtain ⟨_, r3, h3, h⟩ := Py.bind_eq_ok h
  obtain ⟨e1, rfl⟩ := ofExcept_ok h1
  obtain ⟨e2, rfl⟩ := ofExcept_ok h2
  obtain rfl := modify_ok h3
  refine ⟨ys, m, e1, e2, ?_⟩
  have := check_data E "std" { r with std := .num (E.sqrt m) }
  rw [h] at this
  exact this

theorem calcSign_ok {r r' : Rule} {x : Num} (hp : r.prediction = .label (.num x)) (h : calcSign r = (.ok (), r')) :
    r'.data = { r.data with sign := .str (if x.lt (.fin 0) then "-" else "+") } := by
  unfold calcSign at h
  rw [Py.bind_run] at h
  simp only [Py.get_run, hp] at h
  obtain rfl := modify_ok h
  rfl

theorem calcZscore_ok {E : Env} {y : List Label} {hz x : Num} {r r' : Rule} {v : List Nat} (hv : r.act = some v)
    (hp : r.prediction = .label (.num x)) (h : calcZscore E y hz r = (.ok (), r')) :
    ∃ ys, numbers y = .ok ys ∧
      r'.data = { r.data with zscore := .num (zscoreExternal E.sqrt x (nones v) ys hz) } := by
  unfold calcZscore at h
  rw [Py.bind_run] at h
  simp only [Py.get_run, hv, hp] at h
  obtain ⟨ys, r1, h1, h⟩ := Py.bind_eq_ok h
  obtain ⟨m, r2, h2, h⟩ := Py.bind_eq_ok h
  obtain ⟨_, r3, h3, h⟩ := Py.bind_eq_ok h
  obtain ⟨e1, rfl⟩ := ofExcept_ok h1
  obtain ⟨e2, rfl⟩ := ofExcept_ok h2
  obtain rfl := modify_ok h3
  simp only [Except.ok.injEq] at e2
  subst e2
  refine ⟨ys, e1, ?_⟩
  have := check_data E "zscore" { r with zscore := .num (zscoreExternal E.sqrt x (nones v) ys hz) }
  rw [h] at this
  exact this

/-- The steps of a successful `fit` which is not skipped. -/
theorem fit_steps {E : Env} {y : List Label} {xs : Option Xs} {force : Bool} {kw : Kw} {r r' : Rule} (hx : Runs r xs)
    (h : fit E y xs force kw r = (.ok (), r')) :
    ∃ r1 r2 r3, calcActivation E xs r = (.ok (), r1) ∧
      attrLoop E (calcTrain E y kw) force (trainAttrs E.kind) r1 = (.ok (), r2) ∧
      checkAllIfGood E r2 = (.ok (), r3) ∧ r' = { r3 with fitted := true } := by
  unfold fit at h
  by_cases hm : kw.hasMethod = true
  · simp [hm] at h
  · rw [if_neg hm, Py.bind_run] at h
    simp only [Py.get_run] at h
    rw [if_neg (by cases xs <;> simp_all [Runs]), if_neg (by cases xs <;> simp_all [Runs])] at h
    obtain ⟨_, r1, h1, h⟩ := Py.bind_eq_ok h
    obtain ⟨_, r2, h2, h⟩ := Py.bind_eq_ok h
    obtain ⟨_, r3, h3, h⟩ := Py.bind_eq_ok h
    rw [Py.modify_run] at h
    exact ⟨r1, r2, r3, h1, h2, h3, by cases h; rfl⟩

theorem fit_regression {E : Env} {y : List Label} {xs : Option Xs} {force : Bool} {kw : Kw} {r r' : Rule}
    (hk : E.kind = .regression) (hx : Runs r xs) (h : fit E y xs force kw r = (.ok (), r'))
    (hg : r'.good = true ∨ force = true) :
    ∃ v ys m var, Uses E r xs v ∧ numbers y = .ok ys ∧ RFun.conditionalMean v ys = .ok m ∧
      RFun.conditionalVar v ys = .ok var ∧
      r'.data = { r.data with
        act := some v, actCoverage := if xs.isSome then none else r.actCoverage, trainSize := .num (.fin y.length), prediction := .label (.num m),
        std := .num (E.sqrt var), sign := .str (if m.lt (.fin 0) then "-" else "+"),
        zscore := .num (zscoreExternal E.sqrt m (nones v) ys kw.horizon), fitted := true } := by
  obtain ⟨r1, r2, r3, h1, h2, h3, rfl⟩ := fit_steps hx h
  obtain ⟨v, hv, d1⟩ := calcActivation_uses h1 hx
  have hg3 : r2.good = true ∨ force = true := hg.imp_left fun g => (keeps_checkAllIfGood E).good h3 (by simpa using g)
  rw [hk] at h2
  simp only [trainAttrs] at h2
  have K := keeps_calcTrain E y kw
  obtain ⟨a1, b1, ha1, e1, h2⟩ := attrLoop_cons K h2 hg3
  obtain ⟨a2, b2, ha2, e2, h2⟩ := attrLoop_cons K h2 hg3
  obtain ⟨a3, b3, ha3, e3, h2⟩ := attrLoop_cons K h2 hg3
  obtain ⟨a4, b4, ha4, e4, h2⟩ := attrLoop_cons K h2 hg3
  obtain ⟨a5, b5, ha5, e5, h2⟩ := attrLoop_cons K h2 hg3
  cases h2
  have s1 := calcTrain_size ha1
  rw [d1] at s1
  have act_of : ∀ {x : Rule}, x.data.act = some v → x.act = some v := fun h => h
  have pred_of : ∀ {x : Rule} {p : Pred}, x.data.prediction = p → x.prediction = p := fun h => h
  simp only [calcTrain] at ha2 ha3 ha4 ha5
  simp (config := { decide := true }) only [if_true, if_false] at ha2 ha3 ha4 ha5
  obtain ⟨ys, m, hys, hm, s2⟩ := calcPrediction_regression hk (act_of (by rw [e1, s1])) ha2
  rw [e1, s1] at s2
  obtain ⟨ys', var, hys', hvar, s3⟩ := calcStd_ok (act_of (by rw [e2, s2])) ha3
  rw [hys] at hys'
  cases hys'
  rw [e2, s2] at s3
  have s4 := calcSign_ok (pred_of (x := b3) (by rw [e3, s3])) ha4
  rw [e3, s3] at s4
  obtain ⟨ys', hys', s5⟩ := calcZscore_ok (act_of (x := b4) (by rw [e4, s4])) (pred_of (by rw [e4, s4])) ha5
  rw [hys] at hys'
  cases hys'
  rw [e4, s4] at s5
  have s6 := checkAllIfGood_data E r2
  rw [h3, e5, s5] at s6
  refine ⟨v, ys, m, var, hv, hys, hm, hvar, ?_⟩
  show { r3.data with fitted := true } = _
  rw [s6]

theorem fit_classification {E : Env} {y : List Label} {xs : Option Xs} {force : Bool} {kw : Kw} {r r' : Rule}
    (hk : E.kind = .classification) (hx : Runs r xs) (h : fit E y xs force kw r = (.ok (), r'))
    (hg : r'.good = true ∨ force = true) :
    ∃ v p, Uses E r xs v ∧ RFun.classProbabilities v y = .ok p ∧
      r'.data = { r.data with
        act := some v, actCoverage := if xs.isSome then none else r.actCoverage, trainSize := .num (.fin y.length), prediction := .probs p, fitted := true } := by
  obtain ⟨r1, r2, r3, h1, h2, h3, rfl⟩ := fit_steps hx h
  obtain ⟨v, hv, d1⟩ := calcActivation_uses h1 hx
  have hg3 : r2.good = true ∨ force = true := hg.imp_left fun g => (keeps_checkAllIfGood E).good h3 (by simpa using g)
  rw [hk] at h2
  simp only [trainAttrs] at h2
  have K := keeps_calcTrain E y kw
  obtain ⟨a1, b1, ha1, e1, h2⟩ := attrLoop_cons K h2 hg3
  obtain ⟨a2, b2, ha2, e2, h2⟩ := attrLoop_cons K h2 hg3
  cases h2
  have s1 := calcTrain_size ha1
  rw [d1] at s1
  simp only [calcTrain] at ha2
  simp (config := { decide := true }) only [if_true, if_false] at ha2
  obtain ⟨v', p, hv', hp, s2⟩ := calcPrediction_classification hk ha2
  have hact : b1.act = some v := by
    have : b1.data.act = some v := by rw [e1, s1]
    exact this
  have : v' = v := by
    unfold activation at hv'
    rw [hact] at hv'
    simp only at hv'
    split at hv'
    · cases hv'
    · cases hv'; rfl
  subst this
  rw [e1, s1] at s2
  have s6 := checkAllIfGood_data E r2
  rw [h3, e2, s2] at s6
  refine ⟨v', p, hv, hp, ?_⟩
  show { r3.data with fitted := true } = _
  rw [s6]

/-- The steps of a successful `eval` which is not skipped. -/
theorem eval_steps {E : Env} {y : List Label} {xs : Option Xs} {rc force : Bool} {kw : Kw} {r r' : Rule}
    (hx : ∀ x, xs = some x → x.length ≠ 0) (hg : r.good = true ∨ force = true)
    (h : eval E y xs rc force kw r = (.ok (), r')) :
    ∃ v r1 r2 r3, evalActivation E xs rc r = (.ok v, r1) ∧
      attrLoop E (calcTest E y v kw) force (testAttrs E.kind) r1 = (.ok (), r2) ∧
      checkAllIfGood E r2 = (.ok (), r3) ∧ r' = { r3 with evaluated := true } := by
  unfold eval at h
  by_cases hm : kw.hasMethod = true
  · simp [hm] at h
  · rw [if_neg hm, Py.bind_run] at h
    simp only [Py.get_run] at h
    rw [if_neg (by rcases hg with g | g <;> simp [g]), if_neg (by cases xs <;> simp_all)] at h
    obtain ⟨v, r1, h1, h⟩ := Py.bind_eq_ok h
    obtain ⟨_, r2, h2, h⟩ := Py.bind_eq_ok h
    obtain ⟨_, r3, h3, h⟩ := Py.bind_eq_ok h
    rw [Py.modify_run] at h
    exact ⟨v, r1, r2, r3, h1, h2, h3, by cases h; rfl⟩

/-- A rule which `eval` leaves good has been checked. -/
theorem eval_good {E : Env} {y : List Label} {xs : Option Xs} {rc force : Bool} {kw : Kw} {r r' : Rule} {t : Limits}
    (ht : E.thresholds = some t) (hx : ∀ x, xs = some x → x.length ≠ 0)
    (h : eval E y xs rc force kw r = (.ok (), r')) (hg : r'.good = true) :
    ∀ a ∈ E.names, accepts E t r' a = .ok true := by
  obtain ⟨v, r1, r2, r3, -, -, h3, rfl⟩ := eval_steps hx (.inl ((keeps_eval E y xs rc force kw).good h hg)) h
  intro a ha
  rw [accepts_evaluated]
  exact checkAllIfGood_good ht h3 (by simpa using hg) a ha

theorem fit_good {E : Env} {y : List Label} {xs : Option Xs} {force : Bool} {kw : Kw} {r r' : Rule} {t : Limits}
    (ht : E.thresholds = some t) (hx : Runs r xs)
    (h : fit E y xs force kw r = (.ok (), r')) (hg : r'.good = true) :
    ∀ a ∈ E.names, accepts E t r' a = .ok true := by
  obtain ⟨r1, r2, r3, -, -, h3, rfl⟩ := fit_steps hx h
  intro a ha
  rw [accepts_fitted]
  exact checkAllIfGood_good ht h3 (by simpa using hg) a ha

end Verif.Rule
