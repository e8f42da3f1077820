import Verif.RuleFailSpec
import Verif.RuleFit

/-!
# Lemmas on rules after a fit or eval which raised
-/

namespace Verif.RuleFail

open Verif Spec Rule

/-- The code never changes what `R` compares. -/
def Never {α} (R : Rule → Rule → Prop) (p : Py Rule α) : Prop := ∀ r, R r (p r).2

/-- The code does not change what `R` compares when it raises. -/
def OnError {α} (R : Rule → Rule → Prop) (p : Py Rule α) : Prop := ∀ r e r', p r = (.error e, r') → R r r'

/-- A comparison of rules which threshold checks do not affect -/
structure Compare (R : Rule → Rule → Prop) : Prop where
  refl : ∀ r, R r r
  trans : ∀ {a b c}, R a b → R b c → R a c
  data : ∀ {r r' : Rule}, r'.data = r.data → R r r'

theorem fitKept : Compare FitKept where
  refl _ := ⟨rfl, rfl, rfl, rfl, rfl⟩
  trans h k := ⟨k.1.trans h.1, k.2.trans h.2, k.3.trans h.3, k.4.trans h.4, k.5.trans h.5⟩
  data h := ⟨congrArg (·.cond) h, congrArg (·.fitted) h, congrArg (·.evaluated) h, congrArg (·.criterion) h, congrArg (·.testSize) h⟩

theorem evalKept : Compare EvalKept where
  refl _ := ⟨rfl, rfl, rfl, rfl, rfl, rfl, rfl, rfl⟩
  trans h k := ⟨k.1.trans h.1, k.2.trans h.2, k.3.trans h.3, k.4.trans h.4, k.5.trans h.5, k.6.trans h.6, k.7.trans h.7, k.8.trans h.8⟩
  data h := ⟨congrArg (·.cond) h, congrArg (·.fitted) h, congrArg (·.evaluated) h, congrArg (·.prediction) h, congrArg (·.std) h,
    congrArg (·.sign) h, congrArg (·.zscore) h, congrArg (·.trainSize) h⟩

section

variable {R : Rule → Rule → Prop} (hR : Compare R)
include hR

theorem never_bind {α β} {p : Py Rule α} {f : α → Py Rule β} (hp : Never R p) (hf : ∀ a, Never R (f a)) : Never R (p >>= f) := by
  intro r
  have h1 := hp r
  rcases h : p r with ⟨e | a, r1⟩
  · rw [Py.bind_err h]
    rwa [h] at h1
  · rw [Py.bind_ok h]
    rw [h] at h1
    exact hR.trans h1 (hf a r1)

theorem never_bindError {α β} {p : Py Rule α} {f : α → Py Rule β} (hp : Never R p) (hf : ∀ a, OnError R (f a)) : OnError R (p >>= f) := by
  intro r e r' hs
  have h1 := hp r
  rcases h : p r with ⟨e' | a, r1⟩
  · rw [Py.bind_err h] at hs
    rw [h] at h1
    cases hs
    exact h1
  · rw [Py.bind_ok h] at hs
    rw [h] at h1
    exact hR.trans h1 (hf a r1 e r' hs)

theorem never_pure {α} (a : α) : Never R (pure a) := fun r => hR.refl r
theorem never_throw {α} (e : Err) : Never R (Py.throw e : Py Rule α) := fun r => hR.refl r
theorem never_get : Never R Py.get := fun r => hR.refl r
theorem never_ofExcept {α} (x : Except Err α) : Never R (Py.ofExcept x) := fun r => hR.refl r
theorem never_check (E : Env) (name : String) : Never R (check E name) := fun r => hR.data (check_data E name r)
theorem never_checkIfGood (E : Env) (name : String) : Never R (checkIfGood E name) := fun r => hR.data (checkIfGood_data E name r)
theorem never_checkAllIfGood (E : Env) : Never R (checkAllIfGood E) := fun r => hR.data (checkAllIfGood_data E r)

omit hR in
theorem onError_modify (f : Rule → Rule) : OnError R (Py.modify f) := by
  intro s e s' h
  cases h

omit hR in
theorem Never.onError {α} {p : Py Rule α} (h : Never R p) : OnError R p := by
  intro s e s' hs
  have := h s
  rwa [hs] at this

theorem never_calcActivation (E : Env) (xs : Option Xs) (h : ∀ (r : Rule) v, R r { r with act := some v, actCoverage := none }) :
    Never R (calcActivation E xs) := by
  unfold calcActivation
  cases xs with
  | none =>
    refine never_bind hR (never_get hR) fun r => ?_
    split
    · exact never_throw hR _
    · exact never_pure hR _
  | some x =>
    simp only
    split
    · exact never_pure hR _
    · exact never_bind hR (never_get hR) fun r => never_bind hR (never_ofExcept hR _) fun v =>
        never_bind hR (fun r => h r v) fun _ => never_check hR _ _

theorem never_attrLoop {E : Env} {compute : String → Py Rule Unit} {force : Bool} {l : List String} (hc : ∀ a ∈ l, Never R (compute a))
    (hn : ∀ a ∈ l, ∀ r, R r (setNaN a r)) : Never R (attrLoop E compute force l) := by
  induction l with
  | nil => exact never_pure hR _
  | cons a l ih =>
    have ih := ih (fun b hb => hc b (List.mem_cons_of_mem _ hb)) fun b hb => hn b (List.mem_cons_of_mem _ hb)
    unfold attrLoop
    refine never_bind hR (never_get hR) fun r => ?_
    split
    · exact never_bind hR (hn a List.mem_cons_self) fun _ => ih
    · exact never_bind hR (hc a List.mem_cons_self) fun _ => never_bind hR (never_checkIfGood hR _ _) fun _ => ih

end

theorem fit_calcPrediction (E : Env) (y : List Label) : Never FitKept (calcPrediction E y) := by
  unfold calcPrediction
  refine never_bind fitKept (never_get fitKept) fun r => ?_
  cases E.kind with
  | regression =>
    simp only
    cases r.act with
    | none => exact never_pure fitKept _
    | some v =>
      exact never_bind fitKept (never_ofExcept fitKept _) fun _ => never_bind fitKept (never_ofExcept fitKept _) fun _ =>
        never_bind fitKept (fun _ => ⟨rfl, rfl, rfl, rfl, rfl⟩) fun _ => never_check fitKept _ _
  | classification =>
    simp only
    cases r.activation with
    | none => exact never_throw fitKept _
    | some v =>
      exact never_bind fitKept (never_ofExcept fitKept _) fun _ =>
        never_bind fitKept (fun _ => ⟨rfl, rfl, rfl, rfl, rfl⟩) fun _ => never_check fitKept _ _

theorem fit_calcStd (E : Env) (y : List Label) : Never FitKept (calcStd E y) := by
  unfold calcStd
  refine never_bind fitKept (never_get fitKept) fun r => ?_
  cases r.act with
  | none => exact never_pure fitKept _
  | some v =>
    exact never_bind fitKept (never_ofExcept fitKept _) fun _ => never_bind fitKept (never_ofExcept fitKept _) fun _ =>
      never_bind fitKept (fun _ => ⟨rfl, rfl, rfl, rfl, rfl⟩) fun _ => never_check fitKept _ _

theorem fit_calcSign : Never FitKept calcSign := by
  unfold calcSign
  refine never_bind fitKept (never_get fitKept) fun r => ?_
  split
  · exact never_pure fitKept _
  · exact fun _ => ⟨rfl, rfl, rfl, rfl, rfl⟩
  · exact never_throw fitKept _

theorem fit_calcZscore (E : Env) (y : List Label) (h : Num) : Never FitKept (calcZscore E y h) := by
  unfold calcZscore
  refine never_bind fitKept (never_get fitKept) fun r => ?_
  cases r.act with
  | none => exact never_pure fitKept _
  | some v =>
    exact never_bind fitKept (never_ofExcept fitKept _) fun _ => never_bind fitKept (never_ofExcept fitKept _) fun _ =>
      never_bind fitKept (fun _ => ⟨rfl, rfl, rfl, rfl, rfl⟩) fun _ => never_check fitKept _ _

theorem fit_calcTrain (E : Env) (y : List Label) (kw : Kw) (a : String) : Never FitKept (calcTrain E y kw a) := by
  unfold calcTrain
  split
  · exact fun _ => ⟨rfl, rfl, rfl, rfl, rfl⟩
  split
  · exact fit_calcPrediction E y
  split
  · exact fit_calcStd E y
  split
  · exact fit_calcSign
  split
  · exact fit_calcZscore E y _
  · exact never_throw fitKept _

theorem fit_loop (E : Env) (y : List Label) (kw : Kw) (force : Bool) : Never FitKept (attrLoop E (calcTrain E y kw) force (trainAttrs E.kind)) := by
  refine never_attrLoop fitKept (fun a _ => fit_calcTrain E y kw a) fun a ha r => ?_
  generalize E.kind = k at ha
  cases k with
  | regression =>
    simp only [trainAttrs, List.mem_cons, List.not_mem_nil, or_false] at ha
    rcases ha with rfl | rfl | rfl | rfl | rfl <;> exact ⟨rfl, rfl, rfl, rfl, rfl⟩
  | classification =>
    simp only [trainAttrs, List.mem_cons, List.not_mem_nil, or_false] at ha
    rcases ha with rfl | rfl <;> exact ⟨rfl, rfl, rfl, rfl, rfl⟩

theorem eval_calcCriterion (E : Env) (y : List Label) (v : List Nat) (kw : Kw) : Never EvalKept (Rule.calcCriterion E y v kw) := by
  unfold Rule.calcCriterion
  refine never_bind evalKept (never_get evalKept) fun r => ?_
  cases E.kind with
  | regression =>
    exact never_bind evalKept (never_ofExcept evalKept _) fun _ => never_bind evalKept (never_ofExcept evalKept _) fun _ =>
      never_bind evalKept (never_ofExcept evalKept _) fun _ => never_bind evalKept (never_ofExcept evalKept _) fun _ =>
        never_bind evalKept (fun _ => ⟨rfl, rfl, rfl, rfl, rfl, rfl, rfl, rfl⟩) fun _ => never_check evalKept _ _
  | classification =>
    refine never_bind evalKept (never_ofExcept evalKept _) fun o => ?_
    cases o with
    | none => exact never_throw evalKept _
    | some p =>
      exact never_bind evalKept (never_ofExcept evalKept _) fun _ =>
        never_bind evalKept (fun _ => ⟨rfl, rfl, rfl, rfl, rfl, rfl, rfl, rfl⟩) fun _ => never_check evalKept _ _

theorem eval_loop (E : Env) (y : List Label) (v : List Nat) (kw : Kw) (force : Bool) :
    Never EvalKept (attrLoop E (calcTest E y v kw) force (testAttrs E.kind)) := by
  refine never_attrLoop evalKept (fun a _ => ?_) fun a ha r => ?_
  · unfold calcTest
    split
    · exact eval_calcCriterion E y v kw
    split
    · exact fun _ => ⟨rfl, rfl, rfl, rfl, rfl, rfl, rfl, rfl⟩
    · exact never_throw evalKept _
  · generalize E.kind = k at ha
    cases k <;> simp only [testAttrs, List.mem_cons, List.not_mem_nil, or_false] at ha <;> subst ha <;> exact ⟨rfl, rfl, rfl, rfl, rfl, rfl, rfl, rfl⟩

theorem eval_activation (E : Env) (xs : Option Xs) (recompute : Bool) : Never EvalKept (evalActivation E xs recompute) := by
  unfold evalActivation recomputeIf
  refine never_bind evalKept ?_ fun _ => never_bind evalKept (never_get evalKept) fun r => ?_
  · split
    · exact never_calcActivation evalKept E xs fun _ _ => ⟨rfl, rfl, rfl, rfl, rfl, rfl, rfl, rfl⟩
    · exact never_pure evalKept _
  · cases r.act with
    | none => exact never_throw evalKept _
    | some own =>
      cases xs with
      | none => exact never_pure evalKept _
      | some x =>
        simp only
        split
        · exact never_pure evalKept _
        · exact never_ofExcept evalKept _

end Verif.RuleFail
