import Verif.RuleEval
import Verif.RuleFlagLemmas

/-!
# Calls which change nothing

Lemmas for C68.
-/

namespace Verif.Again

open Verif Rule Thresholds

/-- `m` returns `a` and changes nothing of the rule but the record of the checks. -/
def Still {α : Type} (r : Rule) (m : Py Rule α) (a : α) : Prop :=
  ∀ l, ∃ k, m { r with log := l } = (.ok a, { r with log := k })

variable {E : Env} {r : Rule}

theorem Still.pure {α : Type} (a : α) : Still r (pure a : Py Rule α) a := fun l => ⟨l, rfl⟩

theorem Still.bind {α β : Type} {m : Py Rule α} {a : α} {f : α → Py Rule β} {b : β} (h : Still r m a) (h' : Still r (f a) b) :
    Still r (m >>= f) b := by
  intro l
  obtain ⟨k, hk⟩ := h l
  obtain ⟨j, hj⟩ := h' k
  exact ⟨j, by rw [Py.bind_ok hk, hj]⟩

theorem Still.get {β : Type} {f : Rule → Py Rule β} {b : β} (h : ∀ l, Still r (f { r with log := l }) b) :
    Still r (Py.get >>= f) b := by
  intro l
  rw [Py.bind_ok (Py.get_run _)]
  exact h l l

theorem Still.ofExcept {α : Type} {x : Except Err α} {a : α} (h : x = .ok a) : Still r (Py.ofExcept x : Py Rule α) a := by
  intro l
  exact ⟨l, by rw [Py.ofExcept_run, h]⟩

theorem Still.modify {f : Rule → Rule} (h : ∀ l, f { r with log := l } = { r with log := l }) : Still r (Py.modify f) () := by
  intro l
  exact ⟨l, by rw [Py.modify_run, h]⟩

theorem Still.ite_pos {α : Type} {c : Prop} [Decidable c] {m m' : Py Rule α} {a : α} (hc : c) (h : Still r m a) :
    Still r (if c then m else m') a := by
  rw [if_pos hc]; exact h

theorem Still.ite_neg {α : Type} {c : Prop} [Decidable c] {m m' : Py Rule α} {a : α} (hc : ¬c) (h : Still r m' a) :
    Still r (if c then m else m') a := by
  rw [if_neg hc]; exact h

/-- The rule passes the thresholds on these attributes. -/
def Passes (E : Env) (r : Rule) (l : List String) : Prop :=
  ∀ t, E.thresholds = some t → ∀ a ∈ l, accepts E t r a = .ok true

theorem Still.checkOne {t : Limits} {a : String} (h : accepts E t r a = .ok true) : Still r (checkOne E t a) true := by
  intro l
  refine ⟨true :: l, ?_⟩
  rw [checkOne_run, accepts_log, h]

theorem Still.check {l : List String} {a : String} (h : Passes E r l) (ha : a ∈ l) : Still r (check E a) () := by
  unfold Rule.check
  cases ht : E.thresholds with
  | none => exact .pure _
  | some t => exact .bind (.checkOne (h t ht a ha)) (.pure _)

theorem Still.checkEach {t : Limits} {l : List String} (h : ∀ a ∈ l, accepts E t r a = .ok true) : Still r (checkEach E t l) () := by
  induction l with
  | nil => exact .pure _
  | cons a l ih =>
    unfold Rule.checkEach
    exact .bind (.checkOne (h a (List.mem_cons_self ..))) (.ite_pos rfl (ih fun b hb => h b (List.mem_cons_of_mem _ hb)))

theorem Still.checkAll (h : Passes E r E.names) : Still r (Rule.checkAll E) () := by
  unfold Rule.checkAll
  cases ht : E.thresholds with
  | none => exact .pure _
  | some t => exact .checkEach (h t ht)

theorem Still.checkAllIfGood (hg : r.good = true) (h : Passes E r E.names) : Still r (checkAllIfGood E) () :=
  .get fun _ => .ite_pos hg (.checkAll h)

theorem Still.attrLoop {compute : String → Py Rule Unit} {force : Bool} {l : List String} (hg : r.good = true)
    (h : Passes E r E.names) (hl : ∀ a ∈ l, a ∈ E.names) (hc : ∀ a ∈ l, Still r (compute a) ()) :
    Still r (attrLoop E compute force l) () := by
  induction l with
  | nil => exact .pure _
  | cons a l ih =>
    unfold Rule.attrLoop
    exact .get fun _ => .ite_neg (by simp [hg]) (.bind (hc a (List.mem_cons_self ..)) (.bind (.get fun _ => .ite_pos hg
      (.check h (hl a (List.mem_cons_self ..)))) (ih (fun b hb => hl b (List.mem_cons_of_mem _ hb))
        (fun b hb => hc b (List.mem_cons_of_mem _ hb)))))

theorem Still.calcActivation {xs : Xs} {v : List Nat} (hx : xs.length ≠ 0) (hv : r.evaluateActivation E xs = .ok v)
    (ha : r.act = some v) (hac : r.actCoverage = none) (h : Passes E r E.names) (hn : "coverage" ∈ E.names) :
    Still r (calcActivation E (some xs)) () := by
  unfold Rule.calcActivation
  refine .ite_neg hx (.get fun l => .bind (.ofExcept (a := v) hv) (.bind (.modify fun l => ?_) (.check h hn)))
  rw [← ha, ← hac]

/-- A good rule after `fit` or `eval` passes all thresholds. -/
theorem passes_of {r2 r3 : Rule} (h : checkAllIfGood E r2 = (.ok (), r3)) (hg : r3.good = true) : Passes E r3 E.names :=
  fun _ ht => checkAllIfGood_good ht h hg

/-- What `fit` computes is the same for the two rules. -/
structure SameFit (r' r'' : Rule) : Prop where
  cond : r''.cond = r'.cond
  act : r''.act = r'.act
  cov : r''.actCoverage = r'.actCoverage
  size : r''.trainSize = r'.trainSize
  pred : r''.prediction = r'.prediction
  std : r''.std = r'.std
  sign : r''.sign = r'.sign
  zscore : r''.zscore = r'.zscore

theorem fit_hasMethod {y : List Label} {xs : Option Xs} {force : Bool} {kw : Kw} {r r' : Rule}
    (h : fit E y xs force kw r = (.ok (), r')) : kw.hasMethod = false := by
  cases hm : kw.hasMethod with
  | false => rfl
  | true => unfold fit at h; rw [hm] at h; cases h

/-- `fit` again on the same data, of a rule which still has what the first `fit` computed. -/
theorem fit_still_same {y : List Label} {xs : Option Xs} {force force' : Bool} {kw : Kw} {r r' r'' : Rule}
    (hn : ∀ a ∈ "coverage" :: trainAttrs E.kind, a ∈ E.names) (h : fit E y xs force kw r = (.ok (), r')) (hg' : r'.good = true)
    (hr : Runs r xs) (hs : SameFit r' r'') (hg : r''.good = true) (hp : Passes E r'' E.names) (hf : r''.fitted = true) :
    Still r'' (fit E y xs force' kw) () := by
  have hm := fit_hasMethod h
  unfold fit
  refine .ite_neg (by simp [hm]) ?_
  cases xs with
  | none => exact .get fun _ => .ite_pos (by simp [hf]) (.pure _)
  | some x =>
    have hx : x.length ≠ 0 := hr
    refine .get fun _ => .ite_neg (by simp) (.ite_neg (by simpa using hx) ?_)
    cases hk : E.kind with
    | regression =>
      obtain ⟨v, ys, m, var, hv, hy, hme, hva, hd⟩ := fit_regression hk hr h (.inl hg')
      have hcond : r''.cond = r.cond := hs.cond.trans (congrArg Rule.cond hd :)
      have hact : r''.act = some v := hs.act.trans (congrArg Rule.act hd :)
      have hac : r''.actCoverage = none := hs.cov.trans (congrArg Rule.actCoverage hd :)
      have hts : r''.trainSize = .num (.fin y.length) := hs.size.trans (congrArg Rule.trainSize hd :)
      have hpr : r''.prediction = .label (.num m) := hs.pred.trans (congrArg Rule.prediction hd :)
      have hst : r''.std = .num (E.sqrt var) := hs.std.trans (congrArg Rule.std hd :)
      have hsi : r''.sign = .str (if m.lt (.fin 0) then "-" else "+") := hs.sign.trans (congrArg Rule.sign hd :)
      have hz : r''.zscore = .num (zscoreExternal E.sqrt m (nones v) ys kw.horizon) := hs.zscore.trans (congrArg Rule.zscore hd :)
      rw [hk] at hn
      refine .bind (.calcActivation hx ?_ hact hac hp (hn _ (by simp))) (.bind (.attrLoop hg hp (fun a ha => hn a (List.mem_cons_of_mem _ ha)) ?_)
        (.bind (.checkAllIfGood hg hp) (.modify fun _ => by rw [← hf])))
      · unfold Uses evaluateActivation at hv
        unfold evaluateActivation
        rw [← hv, ← hcond]
      · intro a ha
        simp only [trainAttrs, List.mem_cons, List.not_mem_nil, or_false] at ha
        rcases ha with rfl | rfl | rfl | rfl | rfl
        · exact .modify fun l => by rw [← hts]
        · refine .get fun l => ?_
          rw [hk]
          simp only [hact]
          exact .bind (.ofExcept hy) (.bind (.ofExcept hme) (.bind (.modify fun l => by rw [← hpr]) (.check hp (hn _ (by simp [trainAttrs])))))
        · refine .get fun l => ?_
          simp only [hact]
          exact .bind (.ofExcept hy) (.bind (.ofExcept hva) (.bind (.modify fun l => by rw [← hst]) (.check hp (hn _ (by simp [trainAttrs])))))
        · refine .get fun l => ?_
          simp only [hpr]
          exact .modify fun l => by rw [← hsi]
        · refine .get fun l => ?_
          simp only [hact, hpr]
          exact .bind (.ofExcept hy) (.bind (.ofExcept rfl) (.bind (.modify fun l => by rw [← hz]) (.check hp (hn _ (by simp [trainAttrs])))))
    | classification =>
      obtain ⟨v, p, hv, hcp, hd⟩ := fit_classification hk hr h (.inl hg')
      have hcond : r''.cond = r.cond := hs.cond.trans (congrArg Rule.cond hd :)
      have hact : r''.act = some v := hs.act.trans (congrArg Rule.act hd :)
      have hac : r''.actCoverage = none := hs.cov.trans (congrArg Rule.actCoverage hd :)
      have hts : r''.trainSize = .num (.fin y.length) := hs.size.trans (congrArg Rule.trainSize hd :)
      have hpr : r''.prediction = .probs p := hs.pred.trans (congrArg Rule.prediction hd :)
      have hav : r''.activation = some v := by
        unfold Rule.activation
        rw [hact]
        simp only
        have hp0 : v.length ≠ 0 := by
          intro h0
          rw [List.eq_nil_of_length_eq_zero h0] at hcp
          simp [RFun.classProbabilities, RFun.extract, RFun.counter, Bind.bind, Except.bind] at hcp
        rw [if_neg hp0]
      rw [hk] at hn
      refine .bind (.calcActivation hx ?_ hact hac hp (hn _ (by simp))) (.bind (.attrLoop hg hp (fun a ha => hn a (List.mem_cons_of_mem _ ha)) ?_)
        (.bind (.checkAllIfGood hg hp) (.modify fun _ => by rw [← hf])))
      · unfold Uses evaluateActivation at hv
        unfold evaluateActivation
        rw [← hv, ← hcond]
      · intro a ha
        simp only [trainAttrs, List.mem_cons, List.not_mem_nil, or_false] at ha
        rcases ha with rfl | rfl
        · exact .modify fun l => by rw [← hts]
        · refine .get fun l => ?_
          rw [hk]
          have : ({ r'' with log := l } : Rule).activation = some v := hav
          simp only [this]
          exact .bind (.ofExcept hcp) (.bind (.modify fun l => by rw [← hpr]) (.check hp (hn _ (by simp [trainAttrs]))))

/-- `fit` again on the same data. -/
theorem fit_still {y : List Label} {xs : Option Xs} {force force' : Bool} {kw : Kw} {r r' : Rule}
    (hn : ∀ a ∈ "coverage" :: trainAttrs E.kind, a ∈ E.names) (h : fit E y xs force kw r = (.ok (), r')) (hg : r'.good = true)
    (hr : Runs r xs) : Still r' (fit E y xs force' kw) () := by
  obtain ⟨r1, r2, r3, -, -, h3, e⟩ := fit_steps hr h
  have hp : Passes E r' E.names := by
    subst e
    exact fun t ht a ha => passes_of h3 hg t ht a ha
  have hf : r'.fitted = true := by rw [e]
  exact fit_still_same hn h hg hr ⟨rfl, rfl, rfl, rfl, rfl, rfl, rfl, rfl⟩ hg hp hf

/-- A `fit` with nothing to do. -/
theorem fit_skipped {y : List Label} {xs : Option Xs} {force : Bool} {kw : Kw} {r : Rule} (hm : kw.hasMethod = false)
    (hr : ¬Runs r xs) : fit E y xs force kw r = (.ok (), r) := by
  unfold fit
  rw [hm, if_neg (by simp), Py.bind_ok (Py.get_run r)]
  cases xs with
  | none =>
    have : r.fitted = true := by simpa [Runs] using hr
    rw [if_pos (by simp [this])]
    rfl
  | some x =>
    have : x.length = 0 := by simpa [Runs] using hr
    rw [if_neg (by simp), if_pos (by simp [this])]
    rfl

/-- What the first step of `eval` leaves. -/
theorem evalActivation_data {xs : Option Xs} {rc : Bool} {r r' : Rule} {v : List Nat} (hx : ∀ x, xs = some x → x.length ≠ 0)
    (h : evalActivation E xs rc r = (.ok v, r')) :
    r'.act.isSome = true ∧ r'.cond = r.cond ∧ (rc = true → ∀ x, xs = some x → r.evaluateActivation E x = .ok v ∧ r'.act = some v ∧ r'.actCoverage = none) ∧
      (rc = false → ∀ x, xs = some x → r.evaluateActivation E x = .ok v) ∧ (xs = none → r'.act = some v) := by
  have hu := evalActivation_ok hx h
  unfold evalActivation at h
  obtain ⟨_, r1, h1, h⟩ := Py.bind_eq_ok h
  rw [Py.bind_run] at h
  simp only [Py.get_run] at h
  cases ho : r1.act with
  | none => simp [ho] at h
  | some own =>
    simp only [ho] at h
    have e : r' = r1 := by
      cases xs with
      | none => exact (congrArg Prod.snd h).symm
      | some x =>
        cases rc with
        | true => exact (congrArg Prod.snd h).symm
        | false => exact (ofExcept_ok h).2.symm
    subst e
    refine ⟨by rw [ho]; rfl, hu.2.2, ?_, ?_, ?_⟩
    · rintro rfl x rfl
      refine ⟨hu.1, ?_⟩
      unfold recomputeIf at h1
      rw [if_pos rfl] at h1
      obtain ⟨w, hw, hd⟩ := calcActivation_ok h1 (hx x rfl)
      have e : w = v := by
        have : r.evaluateActivation E x = .ok v := hu.1
        rw [hw] at this
        exact Except.ok.inj this
      subst e
      exact ⟨(congrArg Rule.act hd :), (congrArg Rule.actCoverage hd :)⟩
    · rintro rfl x rfl
      exact hu.1
    · rintro rfl
      cases h
      exact ho

/-- `eval` again on the same data. -/
theorem eval_still {y : List Label} {xs : Option Xs} {rc force force' : Bool} {kw : Kw} {r r' : Rule}
    (hn : ∀ a ∈ "coverage" :: testAttrs E.kind, a ∈ E.names) (h : eval E y xs rc force kw r = (.ok (), r')) (hg : r'.good = true)
    (hx : ∀ x, xs = some x → x.length ≠ 0) : Still r' (eval E y xs rc force' kw) () := by
  have hm : kw.hasMethod = false := by
    cases hm : kw.hasMethod with
    | false => rfl
    | true => unfold eval at h; rw [hm] at h; cases h
  have hg0 : r.good = true := (keeps_eval E y xs rc force kw).good h hg
  obtain ⟨v, r1, r2, r3, h1, h2, h3, e⟩ := eval_steps hx (.inl hg0) h
  have hp : Passes E r' E.names := by
    subst e
    exact fun t ht a ha => passes_of h3 hg t ht a ha
  have hf : r'.evaluated = true := by rw [e]
  have hg2 : r2.good = true := (keeps_checkAllIfGood E).good h3 (by subst e; simpa using hg)
  obtain ⟨k1, k2, k3, k4, k5⟩ := evalActivation_data hx h1
  have ht : testAttrs E.kind = ["criterion"] := by cases E.kind <;> rfl
  rw [ht] at h2 hn
  obtain ⟨a1, b1, ha1, e1, h2⟩ := attrLoop_cons (keeps_calcTest E y v kw) h2 (.inl hg2)
  cases h2
  -- the criterion is the same
  have key : ∃ c, r'.data = { r1.data with criterion := c, evaluated := true } ∧
      (Still r' (calcCriterion E y v kw) ()) := by
    simp only [calcTest, if_true, calcCriterion] at ha1
    rw [Py.bind_run] at ha1
    simp only [Py.get_run] at ha1
    have close : ∀ c, check E "criterion" { r1 with criterion := c } = (.ok (), a1) →
        r'.data = { r1.data with criterion := c, evaluated := true } := by
      intro c hc
      have hd := check_data E "criterion" { r1 with criterion := c }
      rw [hc] at hd
      have hd3 := checkAllIfGood_data E r2
      rw [h3, e1, hd] at hd3
      rw [e]
      show { r3.data with evaluated := true } = _
      rw [hd3]
      rfl
    cases hk : E.kind with
    | regression =>
      simp only [hk] at ha1
      obtain ⟨p, s1, g1, ha1⟩ := Py.bind_eq_ok ha1
      obtain ⟨f1, rfl⟩ := ofExcept_ok g1
      obtain ⟨ps, s2, g2, ha1⟩ := Py.bind_eq_ok ha1
      obtain ⟨f2, rfl⟩ := ofExcept_ok g2
      obtain ⟨ys, s3, g3, ha1⟩ := Py.bind_eq_ok ha1
      obtain ⟨f3, rfl⟩ := ofExcept_ok g3
      obtain ⟨c, s4, g4, ha1⟩ := Py.bind_eq_ok ha1
      obtain ⟨f4, rfl⟩ := ofExcept_ok g4
      obtain ⟨_, s5, g5, ha1⟩ := Py.bind_eq_ok ha1
      obtain rfl := modify_ok g5
      have hd := close _ ha1
      refine ⟨_, hd, ?_⟩
      have hc' : r'.criterion = .num c := (congrArg Rule.criterion hd :)
      have q1 : r'.prediction = r1.prediction := (congrArg Rule.prediction hd :)
      have q2 : r'.cond = r1.cond := (congrArg Rule.cond hd :)
      refine .get fun l => ?_
      rw [hk]
      refine .bind (.ofExcept (a := p) ?_) (.bind (.ofExcept f2) (.bind (.ofExcept f3) (.bind (.ofExcept f4)
        (.bind (.modify fun l => by rw [← hc']) (.check hp (hn _ (by simp)))))))
      rw [← f1]
      exact calcPredictionVector_data q1 q2
    | classification =>
      simp only [hk] at ha1
      obtain ⟨p, s1, g1, ha1⟩ := Py.bind_eq_ok ha1
      obtain ⟨f1, rfl⟩ := ofExcept_ok g1
      cases p with
      | none => simp at ha1
      | some p =>
        simp only at ha1
        obtain ⟨c, s4, g4, ha1⟩ := Py.bind_eq_ok ha1
        obtain ⟨f4, rfl⟩ := ofExcept_ok g4
        obtain ⟨_, s5, g5, ha1⟩ := Py.bind_eq_ok ha1
        obtain rfl := modify_ok g5
        have hd := close _ ha1
        refine ⟨_, hd, ?_⟩
        have hc' : r'.criterion = .num c := (congrArg Rule.criterion hd :)
        have q1 : r'.prediction = r1.prediction := (congrArg Rule.prediction hd :)
        refine .get fun l => ?_
        rw [hk]
        refine .bind (.ofExcept (a := some p) ?_) (.bind (.ofExcept f4)
          (.bind (.modify fun l => by rw [← hc']) (.check hp (hn _ (by simp)))))
        rw [← f1]
        exact getPrediction_data q1
  obtain ⟨c, hd, hcrit⟩ := key
  have hact : r'.act = r1.act := (congrArg Rule.act hd :)
  have hac : r'.actCoverage = r1.actCoverage := (congrArg Rule.actCoverage hd :)
  have hcond : r'.cond = r.cond := ((congrArg Rule.cond hd :) : r'.cond = r1.cond).trans k2
  have hev : ∀ x, r'.evaluateActivation E x = r.evaluateActivation E x := fun x => by
    unfold evaluateActivation
    rw [hcond]
  have hea : Still r' (evalActivation E xs rc) v := by
    unfold evalActivation
    rw [← hact] at k1 k3 k5
    obtain ⟨own, hown⟩ := Option.isSome_iff_exists.1 k1
    refine .bind (a := ()) ?_ (.get fun l => ?_)
    · unfold recomputeIf
      cases rc with
      | false => exact .ite_neg (by simp) (.pure _)
      | true =>
        refine .ite_pos rfl ?_
        cases xs with
        | none => exact .get fun _ => .ite_neg (by simp [hown]) (.pure _)
        | some x =>
          obtain ⟨j1, j2, j3⟩ := k3 rfl x rfl
          exact .calcActivation (hx x rfl) ((hev x).trans j1) j2 (hac.trans j3) hp (hn _ (by simp))
    · simp only [hown]
      cases xs with
      | none =>
        have := k5 rfl
        rw [hown] at this
        cases this
        exact .pure _
      | some x =>
        cases rc with
        | true =>
          obtain ⟨j1, j2, j3⟩ := k3 rfl x rfl
          rw [hown] at j2
          cases j2
          exact .ite_pos rfl (.pure _)
        | false => exact .ite_neg (by simp) (.ofExcept ((hev x).trans (k4 rfl x rfl)))
  unfold eval
  refine .ite_neg (by simp [hm]) (.get fun _ => .ite_neg (by simp [hg]) (.ite_neg ?_ (.bind hea (.bind (.attrLoop hg hp ?_ ?_)
    (.bind (.checkAllIfGood hg hp) (.modify fun _ => by rw [← hf]))))))
  · cases xs with
    | none => simp
    | some x => simpa using hx x rfl
  · rw [ht]
    exact fun a ha => hn a (List.mem_cons_of_mem _ ha)
  · rw [ht]
    intro a ha
    obtain rfl := List.mem_singleton.1 ha
    exact hcrit

theorem eval_hasMethod {y : List Label} {xs : Option Xs} {rc force : Bool} {kw : Kw} {r r' : Rule}
    (h : eval E y xs rc force kw r = (.ok (), r')) : kw.hasMethod = false := by
  cases hm : kw.hasMethod with
  | false => rfl
  | true => unfold eval at h; rw [hm] at h; cases h

/-- An `eval` of a good rule with nothing to do. -/
theorem eval_skipped {y : List Label} {x : Xs} {rc force : Bool} {kw : Kw} {r : Rule} (hm : kw.hasMethod = false)
    (hg : r.good = true) (hx : x.length = 0) : eval E y (some x) rc force kw r = (.ok (), r) := by
  unfold eval
  rw [hm, if_neg (by simp), Py.bind_ok (Py.get_run r), if_neg (by simp [hg]), if_pos (by simp [hx])]
  rfl

/-- `eval` without recomputation leaves what `fit` computed. -/
theorem eval_sameFit {y : List Label} {xs : Option Xs} {force : Bool} {kw : Kw} {r r' : Rule}
    (h : eval E y xs false force kw r = (.ok (), r')) : SameFit r r' := by
  have := fun {β} (f : Rule → β) hf hc hfit hev => RuleFlag.leaves_eval (f := f) hf E y xs false force kw (fun e => by cases e) hc hfit hev r
  simp only [h] at this
  constructor
  · exact this Rule.cond (fun _ _ e => (congrArg Rule.cond e :)) (fun _ _ => rfl) (fun _ _ => rfl) (fun _ _ => rfl)
  · exact this Rule.act (fun _ _ e => (congrArg Rule.act e :)) (fun _ _ => rfl) (fun _ _ => rfl) (fun _ _ => rfl)
  · exact this Rule.actCoverage (fun _ _ e => (congrArg Rule.actCoverage e :)) (fun _ _ => rfl) (fun _ _ => rfl) (fun _ _ => rfl)
  · exact this Rule.trainSize (fun _ _ e => (congrArg Rule.trainSize e :)) (fun _ _ => rfl) (fun _ _ => rfl) (fun _ _ => rfl)
  · exact this Rule.prediction (fun _ _ e => (congrArg Rule.prediction e :)) (fun _ _ => rfl) (fun _ _ => rfl) (fun _ _ => rfl)
  · exact this Rule.std (fun _ _ e => (congrArg Rule.std e :)) (fun _ _ => rfl) (fun _ _ => rfl) (fun _ _ => rfl)
  · exact this Rule.sign (fun _ _ e => (congrArg Rule.sign e :)) (fun _ _ => rfl) (fun _ _ => rfl) (fun _ _ => rfl)
  · exact this Rule.zscore (fun _ _ e => (congrArg Rule.zscore e :)) (fun _ _ => rfl) (fun _ _ => rfl) (fun _ _ => rfl)

/-- A good rule after an `eval` which had something to do passes all thresholds and is as fitted as before. -/
theorem eval_passes {y : List Label} {xs : Option Xs} {rc force : Bool} {kw : Kw} {r r' : Rule}
    (h : eval E y xs rc force kw r = (.ok (), r')) (hg : r'.good = true) (hx : ∀ x, xs = some x → x.length ≠ 0) :
    Passes E r' E.names ∧ r'.fitted = r.fitted := by
  have hg0 : r.good = true := (keeps_eval E y xs rc force kw).good h hg
  obtain ⟨v, r1, r2, r3, h1, h2, h3, e⟩ := eval_steps hx (.inl hg0) h
  have hd : RuleFlag.OfData Rule.fitted := fun _ _ e => (congrArg Rule.fitted e :)
  have q1 : r1.fitted = r.fitted := by
    have := RuleFlag.leaves_evalActivation (f := Rule.fitted) hd E xs rc (fun _ _ _ _ => rfl) r
    rwa [h1] at this
  have q2 : r2.fitted = r1.fitted := by
    have ht : testAttrs E.kind = ["criterion"] := by cases E.kind <;> rfl
    rw [ht] at h2
    have := RuleFlag.leaves_attrLoop (f := Rule.fitted) hd E (compute := calcTest E y v kw) (force := force) (l := ["criterion"])
      (fun a ha => by
        obtain rfl := List.mem_singleton.1 ha
        exact RuleFlag.leaves_calcCriterion hd E y v kw (fun _ _ => rfl)) (fun a ha r => by
        obtain rfl := List.mem_singleton.1 ha
        rfl) r1
    rwa [h2] at this
  have q3 : r3.fitted = r2.fitted := by
    have := RuleFlag.leaves_checkAllIfGood (f := Rule.fitted) hd E r2
    rwa [h3] at this
  subst e
  exact ⟨fun t ht a ha => passes_of h3 hg t ht a ha, q3.trans (q2.trans q1)⟩

end Verif.Again
