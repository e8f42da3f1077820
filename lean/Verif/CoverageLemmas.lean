import Verif.RuleHistory
import Verif.RFunLemmas

/-!
# The coverage of a rule is not overwritten
-/

namespace Verif.Rule

open Verif Thresholds

/-- The code does not assign a coverage. -/
def Fresh {α} (m : Py Rule α) : Prop := ∀ r, r.actCoverage = none → (m r).2.actCoverage = none

theorem fresh_pure {α} (a : α) : Fresh (pure a) := fun _ h => h
theorem fresh_throw {α} (e : Err) : Fresh (Py.throw e : Py Rule α) := fun _ h => h
theorem fresh_get : Fresh (Py.get : Py Rule Rule) := fun _ h => h
theorem fresh_ofExcept {α} (x : Except Err α) : Fresh (Py.ofExcept x : Py Rule α) := fun _ h => h

theorem fresh_modify {f : Rule → Rule} (h : ∀ r, (f r).actCoverage = r.actCoverage ∨ (f r).actCoverage = none) :
    Fresh (Py.modify f) := by
  intro r hr
  rcases h r with h | h
  · exact h.trans hr
  · exact h

theorem fresh_bind {α β} {m : Py Rule α} {f : α → Py Rule β} (h : Fresh m) (h' : ∀ a, Fresh (f a)) : Fresh (m >>= f) := by
  intro r hr
  have := h r hr
  rw [Py.bind_run]
  rcases hm : m r with ⟨x, r'⟩
  rw [hm] at this
  cases x with
  | error e => exact this
  | ok a => exact h' a r' this

theorem fresh_ite {α} {c : Prop} [Decidable c] {a b : Py Rule α} (ha : Fresh a) (hb : Fresh b) : Fresh (if c then a else b) := by
  split <;> assumption

theorem fresh_checkOne (E : Env) (t : Limits) (name : String) : Fresh (checkOne E t name) := by
  intro r hr
  rw [checkOne_run]
  split <;> exact hr

theorem fresh_check (E : Env) (name : String) : Fresh (check E name) := by
  unfold check
  split
  · exact fresh_pure _
  · exact fresh_bind (fresh_checkOne _ _ _) fun _ => fresh_pure _

theorem fresh_checkEach (E : Env) (t : Limits) (l : List String) : Fresh (checkEach E t l) := by
  induction l with
  | nil => exact fresh_pure _
  | cons a l ih =>
    unfold checkEach
    exact fresh_bind (fresh_checkOne _ _ _) fun b => fresh_ite ih (fresh_pure _)

theorem fresh_checkAll (E : Env) : Fresh (checkAll E) := by
  unfold checkAll
  split
  · exact fresh_pure _
  · exact fresh_checkEach _ _ _

theorem fresh_calcActivation (E : Env) (xs : Option Xs) : Fresh (calcActivation E xs) := by
  cases xs with
  | none => exact fresh_bind fresh_get fun _ => fresh_ite (fresh_throw _) (fresh_pure _)
  | some xs =>
    refine fresh_ite (fresh_pure _) (fresh_bind fresh_get fun _ => fresh_bind (fresh_ofExcept _) fun _ =>
      fresh_bind (fresh_modify fun r => .inr rfl) fun _ => fresh_check _ _)

theorem fresh_calcPrediction (E : Env) (y : List Label) : Fresh (calcPrediction E y) := by
  refine fresh_bind fresh_get fun r => ?_
  split
  · split
    · exact fresh_pure _
    · exact fresh_bind (fresh_ofExcept _) fun _ => fresh_bind (fresh_ofExcept _) fun _ =>
        fresh_bind (fresh_modify fun r => .inl rfl) fun _ => fresh_check _ _
  · split
    · exact fresh_throw _
    · exact fresh_bind (fresh_ofExcept _) fun _ => fresh_bind (fresh_modify fun r => .inl rfl) fun _ => fresh_check _ _

theorem fresh_calcSign : Fresh calcSign := by
  refine fresh_bind fresh_get fun r => ?_
  split
  · exact fresh_pure _
  · exact fresh_modify fun r => .inl rfl
  · exact fresh_throw _

theorem fresh_calcStd (E : Env) (y : List Label) : Fresh (calcStd E y) := by
  refine fresh_bind fresh_get fun r => ?_
  split
  · exact fresh_pure _
  · exact fresh_bind (fresh_ofExcept _) fun _ => fresh_bind (fresh_ofExcept _) fun _ =>
      fresh_bind (fresh_modify fun r => .inl rfl) fun _ => fresh_check _ _

theorem fresh_calcZscore (E : Env) (y : List Label) (h : Num) : Fresh (calcZscore E y h) := by
  refine fresh_bind fresh_get fun r => ?_
  split
  · exact fresh_pure _
  · exact fresh_bind (fresh_ofExcept _) fun _ => fresh_bind (fresh_ofExcept _) fun _ =>
      fresh_bind (fresh_modify fun r => .inl rfl) fun _ => fresh_check _ _

theorem fresh_calcCriterion (E : Env) (y : List Label) (v : List Nat) (kw : Kw) : Fresh (calcCriterion E y v kw) := by
  refine fresh_bind fresh_get fun r => ?_
  split
  · exact fresh_bind (fresh_ofExcept _) fun _ => fresh_bind (fresh_ofExcept _) fun _ => fresh_bind (fresh_ofExcept _) fun _ =>
      fresh_bind (fresh_ofExcept _) fun _ => fresh_bind (fresh_modify fun r => .inl rfl) fun _ => fresh_check _ _
  · refine fresh_bind (fresh_ofExcept _) fun p => ?_
    split
    · exact fresh_throw _
    · exact fresh_bind (fresh_ofExcept _) fun _ => fresh_bind (fresh_modify fun r => .inl rfl) fun _ => fresh_check _ _

theorem setNaN_fresh (a : String) (r : Rule) :
    (setNaN a r).actCoverage = r.actCoverage ∨ (setNaN a r).actCoverage = none := by
  refine .inl ?_
  unfold setNaN
  repeat' split
  all_goals rfl

theorem fresh_calcTrain (E : Env) (y : List Label) (kw : Kw) (a : String) : Fresh (calcTrain E y kw a) := by
  unfold calcTrain
  refine fresh_ite (fresh_modify fun r => .inl rfl) (fresh_ite (fresh_calcPrediction _ _) (fresh_ite (fresh_calcStd _ _)
    (fresh_ite fresh_calcSign (fresh_ite (fresh_calcZscore _ _ _) (fresh_throw _)))))

theorem fresh_calcTest (E : Env) (y : List Label) (v : List Nat) (kw : Kw) (a : String) : Fresh (calcTest E y v kw a) := by
  unfold calcTest
  exact fresh_ite (fresh_calcCriterion _ _ _ _) (fresh_ite (fresh_modify fun r => .inl rfl) (fresh_throw _))

theorem fresh_checkIfGood (E : Env) (a : String) : Fresh (checkIfGood E a) :=
  fresh_bind fresh_get fun _ => fresh_ite (fresh_check _ _) (fresh_pure _)

theorem fresh_checkAllIfGood (E : Env) : Fresh (checkAllIfGood E) :=
  fresh_bind fresh_get fun _ => fresh_ite (fresh_checkAll _) (fresh_pure _)

theorem fresh_attrLoop (E : Env) {compute : String → Py Rule Unit} (h : ∀ a, Fresh (compute a)) (force : Bool) (l : List String) :
    Fresh (attrLoop E compute force l) := by
  induction l with
  | nil => exact fresh_pure _
  | cons a l ih =>
    unfold attrLoop
    exact fresh_bind fresh_get fun r => fresh_ite (fresh_bind (fresh_modify (setNaN_fresh a)) fun _ => ih)
      (fresh_bind (h a) fun _ => fresh_bind (fresh_checkIfGood _ _) fun _ => ih)

theorem fresh_fit (E : Env) (y : List Label) (xs : Option Xs) (force : Bool) (kw : Kw) : Fresh (fit E y xs force kw) := by
  unfold fit
  exact fresh_ite (fresh_throw _) (fresh_bind fresh_get fun r => fresh_ite (fresh_pure _) (fresh_ite (fresh_pure _)
    (fresh_bind (fresh_calcActivation _ _) fun _ => fresh_bind (fresh_attrLoop E (fresh_calcTrain E y kw) force _) fun _ =>
      fresh_bind (fresh_checkAllIfGood _) fun _ => fresh_modify fun r => .inl rfl)))

theorem foldl_setNaN_fresh (l : List String) (r : Rule) :
    (l.foldl (fun r a => setNaN a r) r).actCoverage = r.actCoverage ∨ (l.foldl (fun r a => setNaN a r) r).actCoverage = none := by
  induction l generalizing r with
  | nil => exact .inl rfl
  | cons a l ih =>
    rcases ih (setNaN a r) with h | h
    · rcases setNaN_fresh a r with h' | h'
      · exact .inl (h.trans h')
      · exact .inr (h.trans h')
    · exact .inr h

theorem fresh_evalActivation (E : Env) (xs : Option Xs) (recompute : Bool) : Fresh (evalActivation E xs recompute) := by
  unfold evalActivation
  refine fresh_bind (fresh_ite (fresh_calcActivation _ _) (fresh_pure _)) fun _ => fresh_bind fresh_get fun r => ?_
  split
  · exact fresh_throw _
  · split
    · exact fresh_ite (fresh_pure _) (fresh_ofExcept _)
    · exact fresh_pure _

theorem fresh_eval (E : Env) (y : List Label) (xs : Option Xs) (recompute force : Bool) (kw : Kw) :
    Fresh (eval E y xs recompute force kw) := by
  unfold eval
  refine fresh_ite (fresh_throw _) (fresh_bind fresh_get fun r => fresh_ite (fresh_modify fun r => ?_) (fresh_ite (fresh_pure _)
    (fresh_bind (fresh_evalActivation _ _ _) fun v => fresh_bind (fresh_attrLoop E (fresh_calcTest E y v kw) force _) fun _ =>
      fresh_bind (fresh_checkAllIfGood _) fun _ => fresh_modify fun r => .inl rfl)))
  exact foldl_setNaN_fresh (testAttrs E.kind) { r with fitted := true }

theorem fresh_run (E : Env) (op : Op) (h : ∀ v, op ≠ .setCoverage v) : Fresh (op.run E) := by
  cases op with
  | fit y xs force kw => exact fresh_fit _ _ _ _ _
  | eval y xs rc force kw => exact fresh_eval _ _ _ _ _ _
  | check name => exact fresh_check _ _
  | checkAll => exact fresh_checkAll _
  | calcActivation xs => exact fresh_calcActivation _ _
  | calcPrediction y => exact fresh_calcPrediction _ _
  | calcSign => exact fresh_calcSign
  | calcStd y => exact fresh_calcStd _ _
  | calcZscore y h => exact fresh_calcZscore _ _ _
  | calcCriterion y v kw => exact fresh_calcCriterion _ _ _ _
  | calcTrainSetSize y => exact fresh_modify fun _ => .inl rfl
  | calcTestSetSize y => exact fresh_modify fun _ => .inl rfl
  | setCoverage v => exact absurd rfl (h v)

theorem play_fresh {r : Rule} (hr : r.actCoverage = none) {ops : List (Env × Op)}
    (h : ∀ p ∈ ops, ∀ v, p.2 ≠ .setCoverage v) : (play r ops).actCoverage = none := by
  induction ops generalizing r with
  | nil => exact hr
  | cons p ops ih =>
    exact ih (fresh_run p.1 p.2 (h p (by simp)) r hr) fun q hq => h q (by simp [hq])

theorem make_fresh (E : Env) (cond : Cond) (act : Option (List Nat)) : (make E cond act).2.actCoverage = none := by
  unfold make
  split
  · exact fresh_check E "coverage" _ rfl
  · rfl

theorem nones_arr (u : List Bool) : nones (Spec.arr u) = u.count true := by
  unfold nones Spec.arr
  induction u with
  | nil => rfl
  | cons b u ih => cases b <;> simp_all

/-- The code does not change the activation. -/
def SameAct {α} (m : Py Rule α) : Prop := ∀ r, (m r).2.act = r.act

theorem act_pure {α} (a : α) : SameAct (pure a) := fun _ => rfl
theorem act_throw {α} (e : Err) : SameAct (Py.throw e : Py Rule α) := fun _ => rfl
theorem act_get : SameAct (Py.get : Py Rule Rule) := fun _ => rfl
theorem act_ofExcept {α} (x : Except Err α) : SameAct (Py.ofExcept x : Py Rule α) := fun _ => rfl

theorem act_modify {f : Rule → Rule} (h : ∀ r, (f r).act = r.act) : SameAct (Py.modify f) := h

theorem act_bind {α β} {m : Py Rule α} {f : α → Py Rule β} (h : SameAct m) (h' : ∀ a, SameAct (f a)) : SameAct (m >>= f) := by
  intro r
  have := h r
  rw [Py.bind_run]
  rcases hm : m r with ⟨x, r'⟩
  rw [hm] at this
  cases x with
  | error e => exact this
  | ok a => exact (h' a r').trans this

theorem act_ite {α} {c : Prop} [Decidable c] {a b : Py Rule α} (ha : SameAct a) (hb : SameAct b) : SameAct (if c then a else b) := by
  split <;> assumption

theorem act_checkOne (E : Env) (t : Limits) (name : String) : SameAct (checkOne E t name) := by
  intro r
  rw [checkOne_run]
  split <;> rfl

theorem act_check (E : Env) (name : String) : SameAct (check E name) := by
  unfold check
  split
  · exact act_pure _
  · exact act_bind (act_checkOne _ _ _) fun _ => act_pure _

theorem act_checkEach (E : Env) (t : Limits) (l : List String) : SameAct (checkEach E t l) := by
  induction l with
  | nil => exact act_pure _
  | cons a l ih =>
    unfold checkEach
    exact act_bind (act_checkOne _ _ _) fun b => act_ite ih (act_pure _)

theorem act_checkAll (E : Env) : SameAct (checkAll E) := by
  unfold checkAll
  split
  · exact act_pure _
  · exact act_checkEach _ _ _

theorem act_calcPrediction (E : Env) (y : List Label) : SameAct (calcPrediction E y) := by
  refine act_bind act_get fun r => ?_
  split
  · split
    · exact act_pure _
    · exact act_bind (act_ofExcept _) fun _ => act_bind (act_ofExcept _) fun _ =>
        act_bind (act_modify fun r => rfl) fun _ => act_check _ _
  · split
    · exact act_throw _
    · exact act_bind (act_ofExcept _) fun _ => act_bind (act_modify fun r => rfl) fun _ => act_check _ _

theorem act_calcSign : SameAct calcSign := by
  refine act_bind act_get fun r => ?_
  split
  · exact act_pure _
  · exact act_modify fun r => rfl
  · exact act_throw _

theorem act_calcStd (E : Env) (y : List Label) : SameAct (calcStd E y) := by
  refine act_bind act_get fun r => ?_
  split
  · exact act_pure _
  · exact act_bind (act_ofExcept _) fun _ => act_bind (act_ofExcept _) fun _ =>
      act_bind (act_modify fun r => rfl) fun _ => act_check _ _

theorem act_calcZscore (E : Env) (y : List Label) (h : Num) : SameAct (calcZscore E y h) := by
  refine act_bind act_get fun r => ?_
  split
  · exact act_pure _
  · exact act_bind (act_ofExcept _) fun _ => act_bind (act_ofExcept _) fun _ =>
      act_bind (act_modify fun r => rfl) fun _ => act_check _ _

theorem setNaN_act (a : String) (r : Rule) : (setNaN a r).act = r.act := by
  unfold setNaN
  repeat' split
  all_goals rfl

theorem act_calcTrain (E : Env) (y : List Label) (kw : Kw) (a : String) : SameAct (calcTrain E y kw a) := by
  unfold calcTrain
  refine act_ite (act_modify fun r => rfl) (act_ite (act_calcPrediction _ _) (act_ite (act_calcStd _ _)
    (act_ite act_calcSign (act_ite (act_calcZscore _ _ _) (act_throw _)))))

theorem act_checkIfGood (E : Env) (a : String) : SameAct (checkIfGood E a) :=
  act_bind act_get fun _ => act_ite (act_check _ _) (act_pure _)

theorem act_checkAllIfGood (E : Env) : SameAct (checkAllIfGood E) :=
  act_bind act_get fun _ => act_ite (act_checkAll _) (act_pure _)

theorem act_attrLoop (E : Env) {compute : String → Py Rule Unit} (h : ∀ a, SameAct (compute a)) (force : Bool) (l : List String) :
    SameAct (attrLoop E compute force l) := by
  induction l with
  | nil => exact act_pure _
  | cons a l ih =>
    unfold attrLoop
    exact act_bind act_get fun r => act_ite (act_bind (act_modify (setNaN_act a)) fun _ => ih)
      (act_bind (h a) fun _ => act_bind (act_checkIfGood _ _) fun _ => ih)


open Spec RFun in
theorem nanvar_population {y : List (Option Rat)} (h : present y ≠ []) :
    nanvar 0 (y.map Num.ofOption) = .fin (populationVariance (present y)) := by
  have hpos : ((present y).length : Rat) ≠ 0 := by simpa using h
  simp only [nanvar, dropna_ofOption, mean_fin h, List.length_map]
  rw [if_neg (by simpa using h), List.map_map]
  have : ((fun x => Num.mul (Num.sub x (Num.fin (meanOf (present y)))) (Num.sub x (Num.fin (meanOf (present y))))) ∘ Num.fin)
      = Num.fin ∘ fun x => (x - meanOf (present y)) ^ 2 := by
    funext x
    simp [Num.sub, Num.neg, Num.add, Num.mul]
    ring
  rw [this, ← List.map_map, sum_fin]
  simp [Num.div, hpos, populationVariance]

end Verif.Rule
