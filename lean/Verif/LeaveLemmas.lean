import Verif.RuleLemmas

/-!
# Lemmas about rules: what fit and eval leave alone
-/

namespace Verif.Rule

open Thresholds (Limits)

/-- The code does not change `g`. -/
def Leaves {γ α} (g : Rule → γ) (m : Py Rule α) : Prop := ∀ r, g (m r).2 = g r

/-- The condition and the activation -/
def own (r : Rule) : Cond × Option (List Nat) := (r.cond, r.act)

section
variable {γ : Type} {g : Rule → γ}

theorem leaves_pure {α} (a : α) : Leaves g (pure a) := fun _ => rfl
theorem leaves_throw {α} (e : Err) : Leaves g (Py.throw e : Py Rule α) := fun _ => rfl
theorem leaves_get : Leaves g (Py.get : Py Rule Rule) := fun _ => rfl
theorem leaves_ofExcept {α} (x : Except Err α) : Leaves g (Py.ofExcept x : Py Rule α) := fun _ => rfl
theorem leaves_modify {f : Rule → Rule} (h : ∀ r, g (f r) = g r) : Leaves g (Py.modify f) := h

theorem leaves_bind {α β} {m : Py Rule α} {f : α → Py Rule β} (h : Leaves g m) (h' : ∀ a, Leaves g (f a)) :
    Leaves g (m >>= f) := by
  intro r
  rw [Py.bind_run]
  have hl := h r
  rcases hm : m r with ⟨x, r'⟩
  rw [hm] at hl
  cases x with
  | error e => exact hl
  | ok a => exact (h' a r').trans hl

theorem leaves_ite {α} {c : Prop} [Decidable c] {a b : Py Rule α} (ha : Leaves g a) (hb : Leaves g b) :
    Leaves g (if c then a else b) := by
  split <;> assumption

end

theorem Leaves.cond {α} {m : Py Rule α} (h : Leaves own m) : Leaves Rule.cond m := fun r => congrArg Prod.fst (h r)

theorem leaves_checkOne (E : Env) (t : Limits) (name : String) : Leaves own (checkOne E t name) := by
  intro r
  rw [checkOne_run]
  cases h : r.accepts E t name with
  | error e => rfl
  | ok b => cases b <;> rfl

theorem leaves_check (E : Env) (name : String) : Leaves own (check E name) := by
  unfold check
  split
  · exact leaves_pure _
  · exact leaves_bind (leaves_checkOne _ _ _) fun _ => leaves_pure _

theorem leaves_checkEach (E : Env) (t : Limits) (l : List String) : Leaves own (checkEach E t l) := by
  induction l with
  | nil => exact leaves_pure _
  | cons a l ih =>
    unfold checkEach
    exact leaves_bind (leaves_checkOne _ _ _) fun b => leaves_ite ih (leaves_pure _)

theorem leaves_checkAll (E : Env) : Leaves own (checkAll E) := by
  unfold checkAll
  split
  · exact leaves_pure _
  · exact leaves_checkEach _ _ _

theorem leaves_calcPrediction (E : Env) (y : List Label) : Leaves own (calcPrediction E y) := by
  refine leaves_bind leaves_get fun r => ?_
  split
  · split
    · exact leaves_pure _
    · exact leaves_bind (leaves_ofExcept _) fun _ => leaves_bind (leaves_ofExcept _) fun _ =>
        leaves_bind (leaves_modify fun r => rfl) fun _ => leaves_check _ _
  · split
    · exact leaves_throw _
    · exact leaves_bind (leaves_ofExcept _) fun _ => leaves_bind (leaves_modify fun r => rfl) fun _ => leaves_check _ _

theorem leaves_calcSign : Leaves own calcSign := by
  refine leaves_bind leaves_get fun r => ?_
  split
  · exact leaves_pure _
  · exact leaves_modify fun r => rfl
  · exact leaves_throw _

theorem leaves_calcStd (E : Env) (y : List Label) : Leaves own (calcStd E y) := by
  refine leaves_bind leaves_get fun r => ?_
  split
  · exact leaves_pure _
  · exact leaves_bind (leaves_ofExcept _) fun _ => leaves_bind (leaves_ofExcept _) fun _ =>
      leaves_bind (leaves_modify fun r => rfl) fun _ => leaves_check _ _

theorem leaves_calcZscore (E : Env) (y : List Label) (h : Num) : Leaves own (calcZscore E y h) := by
  refine leaves_bind leaves_get fun r => ?_
  split
  · exact leaves_pure _
  · exact leaves_bind (leaves_ofExcept _) fun _ => leaves_bind (leaves_ofExcept _) fun _ =>
      leaves_bind (leaves_modify fun r => rfl) fun _ => leaves_check _ _

theorem leaves_calcCriterion (E : Env) (y : List Label) (v : List Nat) (kw : Kw) : Leaves own (calcCriterion E y v kw) := by
  refine leaves_bind leaves_get fun r => ?_
  split
  · exact leaves_bind (leaves_ofExcept _) fun _ => leaves_bind (leaves_ofExcept _) fun _ => leaves_bind (leaves_ofExcept _)
      fun _ => leaves_bind (leaves_ofExcept _) fun _ => leaves_bind (leaves_modify fun r => rfl) fun _ => leaves_check _ _
  · refine leaves_bind (leaves_ofExcept _) fun p => ?_
    split
    · exact leaves_throw _
    · exact leaves_bind (leaves_ofExcept _) fun _ => leaves_bind (leaves_modify fun r => rfl) fun _ => leaves_check _ _

theorem setNaN_leaves (a : String) (r : Rule) : own (setNaN a r) = own r := by
  unfold setNaN
  repeat' split
  all_goals rfl

theorem leaves_calcTrain (E : Env) (y : List Label) (kw : Kw) (a : String) : Leaves own (calcTrain E y kw a) := by
  unfold calcTrain
  refine leaves_ite (leaves_modify fun r => rfl) (leaves_ite (leaves_calcPrediction _ _) (leaves_ite (leaves_calcStd _ _)
    (leaves_ite leaves_calcSign (leaves_ite (leaves_calcZscore _ _ _) (leaves_throw _)))))

theorem leaves_calcTest (E : Env) (y : List Label) (v : List Nat) (kw : Kw) (a : String) : Leaves own (calcTest E y v kw a) := by
  unfold calcTest
  exact leaves_ite (leaves_calcCriterion _ _ _ _) (leaves_ite (leaves_modify fun r => rfl) (leaves_throw _))

theorem leaves_checkIfGood (E : Env) (a : String) : Leaves own (checkIfGood E a) :=
  leaves_bind leaves_get fun _ => leaves_ite (leaves_check _ _) (leaves_pure _)

theorem leaves_checkAllIfGood (E : Env) : Leaves own (checkAllIfGood E) :=
  leaves_bind leaves_get fun _ => leaves_ite (leaves_checkAll _) (leaves_pure _)

theorem leaves_attrLoop (E : Env) {compute : String → Py Rule Unit} (h : ∀ a, Leaves own (compute a)) (force : Bool)
    (l : List String) : Leaves own (attrLoop E compute force l) := by
  induction l with
  | nil => exact leaves_pure _
  | cons a l ih =>
    unfold attrLoop
    exact leaves_bind leaves_get fun r => leaves_ite (leaves_bind (leaves_modify (setNaN_leaves a)) fun _ => ih)
      (leaves_bind (h a) fun _ => leaves_bind (leaves_checkIfGood _ _) fun _ => ih)

theorem leaves_calcActivation (E : Env) (xs : Option Xs) : Leaves Rule.cond (calcActivation E xs) := by
  cases xs with
  | none => exact leaves_bind leaves_get fun _ => leaves_ite (leaves_throw _) (leaves_pure _)
  | some xs =>
    refine leaves_ite (leaves_pure _) (leaves_bind leaves_get fun _ => leaves_bind (leaves_ofExcept _) fun _ =>
      leaves_bind (leaves_modify fun r => rfl) fun _ => (leaves_check _ _).cond)

theorem leaves_calcActivation_none (E : Env) : Leaves own (calcActivation E none) :=
  leaves_bind leaves_get fun _ => leaves_ite (leaves_throw _) (leaves_pure _)

/-- `fit` does not change the condition. -/
theorem leaves_fit (E : Env) (y : List Label) (xs : Option Xs) (force : Bool) (kw : Kw) :
    Leaves Rule.cond (fit E y xs force kw) := by
  unfold fit
  exact leaves_ite (leaves_throw _) (leaves_bind leaves_get fun r => leaves_ite (leaves_pure _) (leaves_ite (leaves_pure _)
    (leaves_bind (leaves_calcActivation _ _) fun _ =>
      leaves_bind (leaves_attrLoop E (leaves_calcTrain E y kw) force _).cond fun _ =>
      leaves_bind (leaves_checkAllIfGood _).cond fun _ => leaves_modify fun r => rfl)))

/-- `fit` without features does not change the activation either. -/
theorem leaves_fit_none (E : Env) (y : List Label) (force : Bool) (kw : Kw) : Leaves own (fit E y none force kw) := by
  unfold fit
  exact leaves_ite (leaves_throw _) (leaves_bind leaves_get fun r => leaves_ite (leaves_pure _) (leaves_ite (leaves_pure _)
    (leaves_bind (leaves_calcActivation_none _) fun _ =>
      leaves_bind (leaves_attrLoop E (leaves_calcTrain E y kw) force _) fun _ =>
      leaves_bind (leaves_checkAllIfGood _) fun _ => leaves_modify fun r => rfl)))

theorem foldl_setNaN_leaves (l : List String) (r : Rule) : own (l.foldl (fun r a => setNaN a r) r) = own r := by
  induction l generalizing r with
  | nil => rfl
  | cons a l ih => exact (ih (setNaN a r)).trans (setNaN_leaves a r)

theorem leaves_evalActivation (E : Env) (xs : Option Xs) (recompute : Bool) :
    Leaves Rule.cond (evalActivation E xs recompute) := by
  unfold evalActivation
  refine leaves_bind (leaves_ite (leaves_calcActivation _ _) (leaves_pure _)) fun _ => leaves_bind leaves_get fun r => ?_
  split
  · exact leaves_throw _
  · split
    · exact leaves_ite (leaves_pure _) (leaves_ofExcept _)
    · exact leaves_pure _

theorem leaves_evalActivation_own (E : Env) (xs : Option Xs) (recompute : Bool) (h : xs = none ∨ recompute = false) :
    Leaves own (evalActivation E xs recompute) := by
  unfold evalActivation
  refine leaves_bind ?_ fun _ => leaves_bind leaves_get fun r => ?_
  · unfold recomputeIf
    rcases h with rfl | rfl
    · exact leaves_ite (leaves_calcActivation_none _) (leaves_pure _)
    · exact leaves_pure _
  · split
    · exact leaves_throw _
    · split
      · exact leaves_ite (leaves_pure _) (leaves_ofExcept _)
      · exact leaves_pure _

/-- `eval` does not change the condition. -/
theorem leaves_eval (E : Env) (y : List Label) (xs : Option Xs) (recompute force : Bool) (kw : Kw) :
    Leaves Rule.cond (eval E y xs recompute force kw) := by
  unfold eval
  refine leaves_ite (leaves_throw _) (leaves_bind leaves_get fun r => leaves_ite (leaves_modify fun r => ?_)
    (leaves_ite (leaves_pure _) (leaves_bind (leaves_evalActivation _ _ _) fun v =>
      leaves_bind (leaves_attrLoop E (leaves_calcTest E y v kw) force _).cond fun _ =>
      leaves_bind (leaves_checkAllIfGood _).cond fun _ => leaves_modify fun r => rfl)))
  exact congrArg Prod.fst (foldl_setNaN_leaves (testAttrs E.kind) { r with fitted := true })

/-- `eval` without features, or which does not keep the new activations, does not change the activation either. -/
theorem leaves_eval_own (E : Env) (y : List Label) (xs : Option Xs) (recompute force : Bool) (kw : Kw)
    (h : xs = none ∨ recompute = false) : Leaves own (eval E y xs recompute force kw) := by
  unfold eval
  refine leaves_ite (leaves_throw _) (leaves_bind leaves_get fun r => leaves_ite (leaves_modify fun r => ?_)
    (leaves_ite (leaves_pure _) (leaves_bind (leaves_evalActivation_own _ _ _ h) fun v =>
      leaves_bind (leaves_attrLoop E (leaves_calcTest E y v kw) force _) fun _ =>
      leaves_bind (leaves_checkAllIfGood _) fun _ => leaves_modify fun r => rfl)))
  exact foldl_setNaN_leaves (testAttrs E.kind) { r with fitted := true }

end Verif.Rule
