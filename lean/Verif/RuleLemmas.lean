import Verif.Rule
import Verif.ThresholdLemmas

/-!
# Lemmas about the checks of rules
-/

namespace Verif.Rule

open Verif Thresholds

/-- `r'` comes from `r` by code during which the threshold checks gave the answers `l`. -/
def After (l : List Bool) (r r' : Rule) : Prop :=
  r'.log = l ++ r.log ∧ r'.good = (r.good && l.all id) ∧ (l.all id = true → r'.badBecause = r.badBecause) ∧
    (l.all id = false → r'.badBecause.isSome = true)

theorem After.refl (r : Rule) : After [] r r := by simp [After]

theorem After.trans {l l' : List Bool} {r r' r'' : Rule} (h : After l r r') (h' : After l' r' r'') :
    After (l' ++ l) r r'' := by
  obtain ⟨h1, h2, h3, h4⟩ := h
  obtain ⟨h5, h6, h7, h8⟩ := h'
  refine ⟨by rw [h5, h1, List.append_assoc], ?_, ?_, ?_⟩
  · rw [h6, h2, List.all_append, Bool.and_assoc, Bool.and_comm (l.all id)]
  · rw [List.all_append, Bool.and_eq_true]
    rintro ⟨a, b⟩
    rw [h7 a, h3 b]
  · rw [List.all_append, Bool.and_eq_false_iff]
    rintro (a | b)
    · exact h8 a
    · cases ha : l'.all id with
      | false => exact h8 ha
      | true => rw [h7 ha]; exact h4 b

/-- The code only changes `good`, `bad_because` and the log by checks. -/
def Keeps {α} (m : Py Rule α) : Prop := ∀ r, ∃ l, After l r (m r).2

theorem keeps_pure {α} (a : α) : Keeps (pure a) := fun r => ⟨[], After.refl r⟩
theorem keeps_throw {α} (e : Err) : Keeps (Py.throw e : Py Rule α) := fun r => ⟨[], After.refl r⟩
theorem keeps_get : Keeps (Py.get : Py Rule Rule) := fun r => ⟨[], After.refl r⟩
theorem keeps_ofExcept {α} (x : Except Err α) : Keeps (Py.ofExcept x : Py Rule α) := fun r => ⟨[], After.refl r⟩

theorem keeps_modify {f : Rule → Rule} (h : ∀ r, (f r).log = r.log ∧ (f r).good = r.good ∧ (f r).badBecause = r.badBecause) :
    Keeps (Py.modify f) := fun r => ⟨[], by simp [After, h r]⟩

theorem keeps_bind {α β} {m : Py Rule α} {f : α → Py Rule β} (h : Keeps m) (h' : ∀ a, Keeps (f a)) : Keeps (m >>= f) := by
  intro r
  obtain ⟨l, hl⟩ := h r
  rw [Py.bind_run]
  rcases hm : m r with ⟨x, r'⟩
  rw [hm] at hl
  cases x with
  | error e => exact ⟨l, hl⟩
  | ok a =>
    obtain ⟨l', hl'⟩ := h' a r'
    exact ⟨l' ++ l, hl.trans hl'⟩

theorem keeps_ite {α} {c : Prop} [Decidable c] {a b : Py Rule α} (ha : Keeps a) (hb : Keeps b) : Keeps (if c then a else b) := by
  split <;> assumption

theorem checkOne_run (E : Env) (t : Limits) (name : String) (r : Rule) :
    checkOne E t name r = match r.accepts E t name with
      | .ok true => (.ok true, { r with log := true :: r.log })
      | .ok false => (.ok false, { r with log := false :: r.log, badBecause := some name, good := false })
      | .error e => (.error e, r) := by
  unfold checkOne
  cases h : r.accepts E t name with
  | error e => simp [Py.bind_run, h]
  | ok b => cases b <;> simp [Py.bind_run, h]

theorem keeps_checkOne (E : Env) (t : Limits) (name : String) : Keeps (checkOne E t name) := by
  intro r
  rw [checkOne_run]
  cases h : r.accepts E t name with
  | error e => exact ⟨[], After.refl r⟩
  | ok b =>
    cases b
    · exact ⟨[false], by simp [After]⟩
    · exact ⟨[true], by simp [After]⟩

theorem keeps_check (E : Env) (name : String) : Keeps (check E name) := by
  unfold check
  split
  · exact keeps_pure _
  · exact keeps_bind (keeps_checkOne _ _ _) fun _ => keeps_pure _

theorem keeps_checkEach (E : Env) (t : Limits) (l : List String) : Keeps (checkEach E t l) := by
  induction l with
  | nil => exact keeps_pure _
  | cons a l ih =>
    unfold checkEach
    exact keeps_bind (keeps_checkOne _ _ _) fun b => keeps_ite ih (keeps_pure _)

theorem keeps_checkAll (E : Env) : Keeps (checkAll E) := by
  unfold checkAll
  split
  · exact keeps_pure _
  · exact keeps_checkEach _ _ _

theorem keeps_calcActivation (E : Env) (xs : Option Xs) : Keeps (calcActivation E xs) := by
  cases xs with
  | none => exact keeps_bind keeps_get fun _ => keeps_ite (keeps_throw _) (keeps_pure _)
  | some xs =>
    refine keeps_ite (keeps_pure _) (keeps_bind keeps_get fun _ => keeps_bind (keeps_ofExcept _) fun _ =>
      keeps_bind (keeps_modify fun r => ⟨rfl, rfl, rfl⟩) fun _ => keeps_check _ _)

theorem keeps_calcPrediction (E : Env) (y : List Label) : Keeps (calcPrediction E y) := by
  refine keeps_bind keeps_get fun r => ?_
  split
  · split
    · exact keeps_pure _
    · exact keeps_bind (keeps_ofExcept _) fun _ => keeps_bind (keeps_ofExcept _) fun _ =>
        keeps_bind (keeps_modify fun r => ⟨rfl, rfl, rfl⟩) fun _ => keeps_check _ _
  · split
    · exact keeps_throw _
    · exact keeps_bind (keeps_ofExcept _) fun _ => keeps_bind (keeps_modify fun r => ⟨rfl, rfl, rfl⟩) fun _ => keeps_check _ _

theorem keeps_calcSign : Keeps calcSign := by
  refine keeps_bind keeps_get fun r => ?_
  split
  · exact keeps_pure _
  · exact keeps_modify fun r => ⟨rfl, rfl, rfl⟩
  · exact keeps_throw _

theorem keeps_calcStd (E : Env) (y : List Label) : Keeps (calcStd E y) := by
  refine keeps_bind keeps_get fun r => ?_
  split
  · exact keeps_pure _
  · exact keeps_bind (keeps_ofExcept _) fun _ => keeps_bind (keeps_ofExcept _) fun _ =>
      keeps_bind (keeps_modify fun r => ⟨rfl, rfl, rfl⟩) fun _ => keeps_check _ _

theorem keeps_calcZscore (E : Env) (y : List Label) (h : Num) : Keeps (calcZscore E y h) := by
  refine keeps_bind keeps_get fun r => ?_
  split
  · exact keeps_pure _
  · exact keeps_bind (keeps_ofExcept _) fun _ => keeps_bind (keeps_ofExcept _) fun _ =>
      keeps_bind (keeps_modify fun r => ⟨rfl, rfl, rfl⟩) fun _ => keeps_check _ _

theorem keeps_calcCriterion (E : Env) (y : List Label) (v : List Nat) (kw : Kw) : Keeps (calcCriterion E y v kw) := by
  refine keeps_bind keeps_get fun r => ?_
  split
  · exact keeps_bind (keeps_ofExcept _) fun _ => keeps_bind (keeps_ofExcept _) fun _ => keeps_bind (keeps_ofExcept _) fun _ =>
      keeps_bind (keeps_ofExcept _) fun _ => keeps_bind (keeps_modify fun r => ⟨rfl, rfl, rfl⟩) fun _ => keeps_check _ _
  · refine keeps_bind (keeps_ofExcept _) fun p => ?_
    split
    · exact keeps_throw _
    · exact keeps_bind (keeps_ofExcept _) fun _ => keeps_bind (keeps_modify fun r => ⟨rfl, rfl, rfl⟩) fun _ => keeps_check _ _

theorem setNaN_keeps (a : String) (r : Rule) :
    (setNaN a r).log = r.log ∧ (setNaN a r).good = r.good ∧ (setNaN a r).badBecause = r.badBecause := by
  unfold setNaN
  repeat' split
  all_goals exact ⟨rfl, rfl, rfl⟩

theorem keeps_calcTrain (E : Env) (y : List Label) (kw : Kw) (a : String) : Keeps (calcTrain E y kw a) := by
  unfold calcTrain
  refine keeps_ite (keeps_modify fun r => ⟨rfl, rfl, rfl⟩) (keeps_ite (keeps_calcPrediction _ _) (keeps_ite (keeps_calcStd _ _)
    (keeps_ite keeps_calcSign (keeps_ite (keeps_calcZscore _ _ _) (keeps_throw _)))))

theorem keeps_calcTest (E : Env) (y : List Label) (v : List Nat) (kw : Kw) (a : String) : Keeps (calcTest E y v kw a) := by
  unfold calcTest
  exact keeps_ite (keeps_calcCriterion _ _ _ _) (keeps_ite (keeps_modify fun r => ⟨rfl, rfl, rfl⟩) (keeps_throw _))

theorem keeps_checkIfGood (E : Env) (a : String) : Keeps (checkIfGood E a) :=
  keeps_bind keeps_get fun _ => keeps_ite (keeps_check _ _) (keeps_pure _)

theorem keeps_checkAllIfGood (E : Env) : Keeps (checkAllIfGood E) :=
  keeps_bind keeps_get fun _ => keeps_ite (keeps_checkAll _) (keeps_pure _)

theorem keeps_attrLoop (E : Env) {compute : String → Py Rule Unit} (h : ∀ a, Keeps (compute a)) (force : Bool) (l : List String) :
    Keeps (attrLoop E compute force l) := by
  induction l with
  | nil => exact keeps_pure _
  | cons a l ih =>
    unfold attrLoop
    exact keeps_bind keeps_get fun r => keeps_ite (keeps_bind (keeps_modify (setNaN_keeps a)) fun _ => ih)
      (keeps_bind (h a) fun _ => keeps_bind (keeps_checkIfGood _ _) fun _ => ih)

theorem keeps_fit (E : Env) (y : List Label) (xs : Option Xs) (force : Bool) (kw : Kw) : Keeps (fit E y xs force kw) := by
  unfold fit
  exact keeps_ite (keeps_throw _) (keeps_bind keeps_get fun r => keeps_ite (keeps_pure _) (keeps_ite (keeps_pure _)
    (keeps_bind (keeps_calcActivation _ _) fun _ => keeps_bind (keeps_attrLoop E (keeps_calcTrain E y kw) force _) fun _ =>
      keeps_bind (keeps_checkAllIfGood _) fun _ => keeps_modify fun r => ⟨rfl, rfl, rfl⟩)))

theorem foldl_setNaN_keeps (l : List String) (r : Rule) :
    (l.foldl (fun r a => setNaN a r) r).log = r.log ∧ (l.foldl (fun r a => setNaN a r) r).good = r.good ∧
      (l.foldl (fun r a => setNaN a r) r).badBecause = r.badBecause := by
  induction l generalizing r with
  | nil => exact ⟨rfl, rfl, rfl⟩
  | cons a l ih =>
    obtain ⟨h1, h2, h3⟩ := ih (setNaN a r)
    obtain ⟨h4, h5, h6⟩ := setNaN_keeps a r
    exact ⟨h1.trans h4, h2.trans h5, h3.trans h6⟩

theorem keeps_evalActivation (E : Env) (xs : Option Xs) (recompute : Bool) : Keeps (evalActivation E xs recompute) := by
  unfold evalActivation
  refine keeps_bind (keeps_ite (keeps_calcActivation _ _) (keeps_pure _)) fun _ => keeps_bind keeps_get fun r => ?_
  split
  · exact keeps_throw _
  · split
    · exact keeps_ite (keeps_pure _) (keeps_ofExcept _)
    · exact keeps_pure _

theorem keeps_eval (E : Env) (y : List Label) (xs : Option Xs) (recompute force : Bool) (kw : Kw) :
    Keeps (eval E y xs recompute force kw) := by
  unfold eval
  refine keeps_ite (keeps_throw _) (keeps_bind keeps_get fun r => keeps_ite (keeps_modify fun r => ?_) (keeps_ite (keeps_pure _)
    (keeps_bind (keeps_evalActivation _ _ _) fun v => keeps_bind (keeps_attrLoop E (keeps_calcTest E y v kw) force _) fun _ =>
      keeps_bind (keeps_checkAllIfGood _) fun _ => keeps_modify fun r => ⟨rfl, rfl, rfl⟩)))
  exact foldl_setNaN_keeps (testAttrs E.kind) { r with fitted := true }

end Verif.Rule
