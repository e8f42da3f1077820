import Verif.RuleEval

/-! Lemmas about what `fit` and `eval` of a rule leave alone, for `RuleFlagProps`. -/

namespace Verif

namespace RuleFlag

open Rule

/-- The call does not change what `f` shows of the rule, whether it raises or not. -/
def Leaves {α β} (f : Rule → β) (m : Py Rule α) : Prop := ∀ r, f (m r).2 = f r

namespace Leaves

variable {β : Type} {f : Rule → β}

theorem pure {α} (a : α) : Leaves f (pure a : Py Rule α) := fun _ => rfl
theorem throw {α} (e : Err) : Leaves f (Py.throw e : Py Rule α) := fun _ => rfl
theorem get : Leaves f (Py.get : Py Rule Rule) := fun _ => rfl
theorem ofExcept {α} (x : Except Err α) : Leaves f (Py.ofExcept x : Py Rule α) := fun _ => rfl
theorem modify {g : Rule → Rule} (h : ∀ r, f (g r) = f r) : Leaves f (Py.modify g) := fun r => h r

theorem bind {α γ} {m : Py Rule α} {k : α → Py Rule γ} (h : Leaves f m) (h' : ∀ a, Leaves f (k a)) : Leaves f (m >>= k) := by
  intro r
  have hr := h r
  rw [Py.bind_run]
  rcases hm : m r with ⟨x, r'⟩
  rw [hm] at hr
  cases x with
  | error e => exact hr
  | ok a => exact (h' a r').trans hr

theorem ite {α} {c : Prop} [Decidable c] {a b : Py Rule α} (ha : Leaves f a) (hb : Leaves f b) :
    Leaves f (if c then a else b) := by
  split <;> assumption

theorem ofData {α} {m : Py Rule α} (hf : ∀ r r' : Rule, r.data = r'.data → f r = f r') (h : ∀ r, (m r).2.data = r.data) :
    Leaves f m := fun r => hf _ _ (h r)

end Leaves

/-- What shows only figures and flags -/
def OfData {β} (f : Rule → β) : Prop := ∀ r r' : Rule, r.data = r'.data → f r = f r'

variable {β : Type} {f : Rule → β}

theorem leaves_check (hf : OfData f) (E : Env) (a : String) : Leaves f (check E a) := .ofData hf (check_data E a)
theorem leaves_checkIfGood (hf : OfData f) (E : Env) (a : String) : Leaves f (checkIfGood E a) :=
  .ofData hf (checkIfGood_data E a)
theorem leaves_checkAllIfGood (hf : OfData f) (E : Env) : Leaves f (checkAllIfGood E) := .ofData hf (checkAllIfGood_data E)

theorem leaves_attrLoop (hf : OfData f) (E : Env) {compute : String → Py Rule Unit} {force : Bool} {l : List String}
    (h : ∀ a ∈ l, Leaves f (compute a)) (hn : ∀ a ∈ l, ∀ r, f (setNaN a r) = f r) :
    Leaves f (attrLoop E compute force l) := by
  induction l with
  | nil => exact .pure _
  | cons a l ih =>
    have ih' := ih (fun b hb => h b (List.mem_cons_of_mem _ hb)) (fun b hb => hn b (List.mem_cons_of_mem _ hb))
    unfold attrLoop
    exact .bind .get fun r => .ite (.bind (.modify (hn a List.mem_cons_self)) fun _ => ih')
      (.bind (h a List.mem_cons_self) fun _ => .bind (leaves_checkIfGood hf _ _) fun _ => ih')

theorem leaves_calcActivation (hf : OfData f) (E : Env) (xs : Option Xs)
    (ha : ∀ (r : Rule) v c, f { r with act := v, actCoverage := c } = f r) : Leaves f (calcActivation E xs) := by
  cases xs with
  | none => exact .bind .get fun _ => .ite (.throw _) (.pure _)
  | some xs =>
    exact .ite (.pure _) (.bind .get fun _ => .bind (.ofExcept _) fun _ => .bind (.modify fun r => ha r _ _) fun _ =>
      leaves_check hf _ _)

theorem leaves_calcCriterion (hf : OfData f) (E : Env) (y : List Label) (v : List Nat) (kw : Kw)
    (hc : ∀ (r : Rule) c, f { r with criterion := c } = f r) : Leaves f (calcCriterion E y v kw) := by
  refine .bind .get fun r => ?_
  split
  · exact .bind (.ofExcept _) fun _ => .bind (.ofExcept _) fun _ => .bind (.ofExcept _) fun _ => .bind (.ofExcept _) fun _ =>
      .bind (.modify fun r => hc r _) fun _ => leaves_check hf _ _
  · refine .bind (.ofExcept _) fun p => ?_
    split
    · exact .throw _
    · exact .bind (.ofExcept _) fun _ => .bind (.modify fun r => hc r _) fun _ => leaves_check hf _ _

theorem leaves_evalActivation (hf : OfData f) (E : Env) (xs : Option Xs) (rc : Bool)
    (ha : rc = true → ∀ (r : Rule) v c, f { r with act := v, actCoverage := c } = f r) : Leaves f (evalActivation E xs rc) := by
  have hre : Leaves f (recomputeIf E xs rc) := by
    cases rc with
    | true => exact leaves_calcActivation hf E xs (ha rfl)
    | false => exact .pure _
  unfold evalActivation
  refine .bind hre fun _ => .bind .get fun r => ?_
  split
  · exact .throw _
  · split
    · exact .ite (.pure _) (.ofExcept _)
    · exact .pure _

theorem leaves_eval (hf : OfData f) (E : Env) (y : List Label) (xs : Option Xs) (rc force : Bool) (kw : Kw)
    (ha : rc = true → ∀ (r : Rule) v c, f { r with act := v, actCoverage := c } = f r)
    (hc : ∀ (r : Rule) c, f { r with criterion := c } = f r) (hfit : ∀ (r : Rule) b, f { r with fitted := b } = f r)
    (hev : ∀ (r : Rule) b, f { r with evaluated := b } = f r) : Leaves f (eval E y xs rc force kw) := by
  have ht : testAttrs E.kind = ["criterion"] := by cases E.kind <;> rfl
  have hn : ∀ r, f (setNaN "criterion" r) = f r := fun r => hc r _
  unfold eval
  rw [ht]
  refine .ite (.throw _) (.bind .get fun r => .ite (.modify fun r => ?_) (.ite (.pure _)
    (.bind (leaves_evalActivation hf E xs rc ha) fun v => .bind (leaves_attrLoop hf E ?_ ?_) fun _ =>
      .bind (leaves_checkAllIfGood hf E) fun _ => .modify fun r => hev r _)))
  · exact (hn _).trans (hfit r true)
  · intro a h
    obtain rfl := List.mem_singleton.1 h
    exact leaves_calcCriterion hf E y v kw hc
  · intro a h
    obtain rfl := List.mem_singleton.1 h
    exact hn

theorem leaves_calcTrain (hf : OfData f) (E : Env) (y : List Label) (kw : Kw) (a : String)
    (h1 : ∀ (r : Rule) x, f { r with trainSize := x } = f r) (h2 : ∀ (r : Rule) x, f { r with prediction := x } = f r)
    (h3 : ∀ (r : Rule) x, f { r with std := x } = f r) (h4 : ∀ (r : Rule) x, f { r with sign := x } = f r)
    (h5 : ∀ (r : Rule) x, f { r with zscore := x } = f r) : Leaves f (calcTrain E y kw a) := by
  unfold calcTrain
  refine .ite (.modify fun r => h1 r _) (.ite ?_ (.ite ?_ (.ite ?_ (.ite ?_ (.throw _)))))
  · refine .bind .get fun r => ?_
    split
    · split
      · exact .pure _
      · exact .bind (.ofExcept _) fun _ => .bind (.ofExcept _) fun _ => .bind (.modify fun r => h2 r _) fun _ =>
          leaves_check hf _ _
    · split
      · exact .throw _
      · exact .bind (.ofExcept _) fun _ => .bind (.modify fun r => h2 r _) fun _ => leaves_check hf _ _
  · refine .bind .get fun r => ?_
    split
    · exact .pure _
    · exact .bind (.ofExcept _) fun _ => .bind (.ofExcept _) fun _ => .bind (.modify fun r => h3 r _) fun _ =>
        leaves_check hf _ _
  · refine .bind .get fun r => ?_
    split
    · exact .pure _
    · exact .modify fun r => h4 r _
    · exact .throw _
  · refine .bind .get fun r => ?_
    split
    · exact .pure _
    · exact .bind (.ofExcept _) fun _ => .bind (.ofExcept _) fun _ => .bind (.modify fun r => h5 r _) fun _ =>
        leaves_check hf _ _

theorem leaves_fit (hf : OfData f) (E : Env) (y : List Label) (xs : Option Xs) (force : Bool) (kw : Kw)
    (ha : ∀ (r : Rule) v c, f { r with act := v, actCoverage := c } = f r)
    (h1 : ∀ (r : Rule) x, f { r with trainSize := x } = f r) (h2 : ∀ (r : Rule) x, f { r with prediction := x } = f r)
    (h3 : ∀ (r : Rule) x, f { r with std := x } = f r) (h4 : ∀ (r : Rule) x, f { r with sign := x } = f r)
    (h5 : ∀ (r : Rule) x, f { r with zscore := x } = f r) (hfit : ∀ (r : Rule) b, f { r with fitted := b } = f r) :
    Leaves f (fit E y xs force kw) := by
  unfold fit
  refine .ite (.throw _) (.bind .get fun r => .ite (.pure _) (.ite (.pure _) (.bind (leaves_calcActivation hf E xs ha) fun _ =>
    .bind (leaves_attrLoop hf E (fun a _ => leaves_calcTrain hf E y kw a h1 h2 h3 h4 h5) ?_) fun _ =>
      .bind (leaves_checkAllIfGood hf E) fun _ => .modify fun r => hfit r _)))
  intro a ha' r
  cases hk : E.kind <;> rw [hk] at ha' <;> simp only [trainAttrs, List.mem_cons, List.not_mem_nil, or_false] at ha'
  · rcases ha' with rfl | rfl | rfl | rfl | rfl
    exacts [h1 r _, h2 r _, h3 r _, h4 r _, h5 r _]
  · rcases ha' with rfl | rfl
    exacts [h1 r _, h2 r _]

/-- The loop over the attributes of a rule which is already bad -/
theorem attrLoop_bad (E : Env) (compute : String → Py Rule Unit) (l : List String) (r : Rule) (hb : r.good = false) :
    attrLoop E compute false l r = (.ok (), l.foldl (fun r a => setNaN a r) r) := by
  induction l generalizing r with
  | nil => rfl
  | cons a l ih =>
    unfold attrLoop
    rw [Py.bind_run]
    simp only [Py.get_run, hb, Bool.not_false, Bool.and_self, if_true]
    rw [Py.bind_run]
    simp only [Py.modify_run]
    rw [ih (setNaN a r) ((setNaN_keeps a r).2.1.trans hb)]
    rfl

end RuleFlag

end Verif
