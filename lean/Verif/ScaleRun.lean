import Verif.ScaleLemmas

/-!
# Lemmas: two runs of `fit` and `eval` on rules which differ only in their conditions
-/

namespace Verif.Scales

open Verif Spec RFun Rule

variable {E : Env} {c d : Cond}

/-- Two programs with the same outcome on two rules which differ only in their conditions, `c` and `d` -/
def Alike {α : Type} (c d : Cond) (m m' : Py Rule α) : Prop :=
  ∀ r, r.cond = c → m' (recond d r) = ((m r).1, recond d (m r).2) ∧ (m r).2.cond = c

theorem alike_pure {α : Type} (a : α) : Alike c d (pure a) (pure a) := fun _ h => ⟨rfl, h⟩

theorem alike_throw {α : Type} (e : Err) : Alike c d (Py.throw e : Py Rule α) (Py.throw e) := fun _ h => ⟨rfl, h⟩

theorem alike_ofExcept {α : Type} (x : Except Err α) : Alike c d (Py.ofExcept x) (Py.ofExcept x) := fun _ h => ⟨rfl, h⟩

theorem alike_bind {α β : Type} {m m' : Py Rule α} {f f' : α → Py Rule β} (hm : Alike c d m m') (hf : ∀ a, Alike c d (f a) (f' a)) :
    Alike c d (m >>= f) (m' >>= f') := by
  intro r h
  obtain ⟨h1, h2⟩ := hm r h
  rw [Py.bind_run, Py.bind_run, h1]
  rcases hr : m r with ⟨x, s⟩
  rw [hr] at h2
  cases x with
  | error e => exact ⟨rfl, h2⟩
  | ok a => exact hf a s h2

theorem alike_get {α : Type} {f f' : Rule → Py Rule α} (h : ∀ r, r.cond = c → Alike c d (f r) (f' (recond d r))) :
    Alike c d (Py.get >>= f) (Py.get >>= f') := by
  intro r hr
  rw [Py.bind_ok (Py.get_run r), Py.bind_ok (Py.get_run (recond d r))]
  exact h r hr r hr

theorem alike_modify {f : Rule → Rule} (hf : ∀ r, f (recond d r) = recond d (f r)) (ha : ∀ r, (f r).cond = r.cond) :
    Alike c d (Py.modify f) (Py.modify f) := by
  intro r h
  refine ⟨?_, (ha r).trans h⟩
  show (Except.ok (), f (recond d r)) = _
  rw [hf]
  rfl

theorem alike_if {α : Type} {p : Prop} [Decidable p] {m n m' n' : Py Rule α} (h1 : Alike c d m m') (h2 : Alike c d n n') :
    Alike c d (if p then m else n) (if p then m' else n') := by
  split
  · exact h1
  · exact h2

theorem getattr_recond (hE : CondFree E) (r : Rule) : (recond d r).getattr E = r.getattr E := by
  funext name
  have := hE { r with fitted := false, evaluated := false, log := [] } d name
  unfold recond at this
  unfold getattr recond
  simp only at this ⊢
  rw [this]
  rfl

theorem alike_checkOne (hE : CondFree E) (t : Thresholds.Limits) (name : String) : Alike c d (checkOne E t name) (checkOne E t name) := by
  unfold checkOne
  refine alike_get fun r h => ?_
  have : (recond d r).accepts E t name = r.accepts E t name := by
    unfold accepts
    rw [getattr_recond hE]
  rw [this]
  refine alike_bind (alike_ofExcept _) fun b => ?_
  refine alike_bind (alike_modify (fun _ => rfl) fun _ => rfl) fun _ => ?_
  exact alike_if (alike_pure _) (alike_bind (alike_modify (fun _ => rfl) fun _ => rfl) fun _ => alike_pure _)

theorem alike_check (hE : CondFree E) (name : String) : Alike c d (check E name) (check E name) := by
  unfold check
  cases E.thresholds with
  | none => exact alike_pure _
  | some t => exact alike_bind (alike_checkOne hE t name) fun _ => alike_pure _

theorem alike_checkEach (hE : CondFree E) (t : Thresholds.Limits) (l : List String) : Alike c d (checkEach E t l) (checkEach E t l) := by
  induction l with
  | nil => exact alike_pure _
  | cons a l ih =>
    unfold checkEach
    exact alike_bind (alike_checkOne hE t a) fun b => alike_if ih (alike_pure _)

theorem alike_checkAll (hE : CondFree E) : Alike c d (Rule.checkAll E) (Rule.checkAll E) := by
  unfold Rule.checkAll
  cases E.thresholds with
  | none => exact alike_pure _
  | some t => exact alike_checkEach hE t _

theorem alike_checkIfGood (hE : CondFree E) (name : String) : Alike c d (checkIfGood E name) (checkIfGood E name) := by
  unfold checkIfGood
  exact alike_get fun r h => alike_if (alike_check hE name) (alike_pure _)

theorem alike_checkAllIfGood (hE : CondFree E) : Alike c d (checkAllIfGood E) (checkAllIfGood E) := by
  unfold checkAllIfGood
  exact alike_get fun r h => alike_if (alike_checkAll hE) (alike_pure _)

theorem setNaN_cond (a : String) (r : Rule) : (setNaN a r).cond = r.cond := by
  unfold setNaN
  split
  · rfl
  · split
    · rfl
    · split
      · rfl
      · split
        · rfl
        · split
          · rfl
          · split
            · rfl
            · split <;> rfl

theorem setNaN_recond (a : String) (r : Rule) : setNaN a (recond d r) = recond d (setNaN a r) := by
  unfold setNaN
  split
  · rfl
  · split
    · rfl
    · split
      · rfl
      · split
        · rfl
        · split
          · rfl
          · split
            · rfl
            · split <;> rfl

theorem alike_attrLoop (hE : CondFree E) {compute compute' : String → Py Rule Unit} (hc : ∀ a, Alike c d (compute a) (compute' a)) (force : Bool)
    (l : List String) : Alike c d (attrLoop E compute force l) (attrLoop E compute' force l) := by
  induction l with
  | nil => exact alike_pure _
  | cons a l ih =>
    unfold attrLoop
    refine alike_get fun r h => alike_if ?_ ?_
    · exact alike_bind (alike_modify (setNaN_recond a) (setNaN_cond a)) fun _ => ih
    · exact alike_bind (hc a) fun _ => alike_bind (alike_checkIfGood hE a) fun _ => ih

theorem alike_calcPrediction (hE : CondFree E) (y : List Label) : Alike c d (calcPrediction E y) (calcPrediction E y) := by
  unfold calcPrediction
  refine alike_get fun r h => ?_
  cases E.kind with
  | regression =>
    show Alike c d (match r.act with | none => _ | some v => _) (match r.act with | none => _ | some v => _)
    cases r.act with
    | none => exact alike_pure _
    | some v =>
      exact alike_bind (alike_ofExcept _) fun _ => alike_bind (alike_ofExcept _) fun _ =>
        alike_bind (alike_modify (fun _ => rfl) fun _ => rfl) fun _ => alike_check hE _
  | classification =>
    show Alike c d (match r.activation with | none => _ | some v => _) (match r.activation with | none => _ | some v => _)
    cases r.activation with
    | none => exact alike_throw _
    | some v =>
      exact alike_bind (alike_ofExcept _) fun _ => alike_bind (alike_modify (fun _ => rfl) fun _ => rfl) fun _ => alike_check hE _

theorem alike_calcStd (hE : CondFree E) (y : List Label) : Alike c d (calcStd E y) (calcStd E y) := by
  unfold calcStd
  refine alike_get fun r h => ?_
  show Alike c d (match r.act with | none => _ | some v => _) (match r.act with | none => _ | some v => _)
  cases r.act with
  | none => exact alike_pure _
  | some v =>
    exact alike_bind (alike_ofExcept _) fun _ => alike_bind (alike_ofExcept _) fun _ =>
      alike_bind (alike_modify (fun _ => rfl) fun _ => rfl) fun _ => alike_check hE _

theorem alike_calcSign : Alike c d calcSign calcSign := by
  unfold calcSign
  refine alike_get fun r h => ?_
  show Alike c d (match r.prediction with | .none => _ | .label (.num x) => _ | _ => _) (match r.prediction with | .none => _ | .label (.num x) => _ | _ => _)
  cases r.prediction with
  | none => exact alike_pure _
  | probs p => exact alike_throw _
  | label l =>
    cases l with
    | num x => exact alike_modify (fun _ => rfl) fun _ => rfl
    | text s => exact alike_throw _

theorem alike_calcZscore (hE : CondFree E) (y : List Label) (k : Num) : Alike c d (calcZscore E y k) (calcZscore E y k) := by
  unfold calcZscore
  refine alike_get fun r h => ?_
  show Alike c d (match r.act with | none => _ | some v => _) (match r.act with | none => _ | some v => _)
  cases r.act with
  | none => exact alike_pure _
  | some v =>
    exact alike_bind (alike_ofExcept _) fun _ => alike_bind (alike_ofExcept _) fun _ =>
      alike_bind (alike_modify (fun _ => rfl) fun _ => rfl) fun _ => alike_check hE _

theorem alike_calcTrain (hE : CondFree E) (y : List Label) (kw : Kw) (a : String) : Alike c d (calcTrain E y kw a) (calcTrain E y kw a) := by
  unfold calcTrain
  refine alike_if (alike_modify (fun _ => rfl) fun _ => rfl) (alike_if (alike_calcPrediction hE y) (alike_if (alike_calcStd hE y)
    (alike_if alike_calcSign (alike_if (alike_calcZscore hE y _) (alike_throw _)))))

theorem calcPredictionVector_recond (hl : d.length = c.length) {r : Rule} (h : r.cond = c) (a : Option (List Nat)) :
    (recond d r).calcPredictionVector E a = r.calcPredictionVector E a := by
  have : (recond d r).length = r.length := by
    show d.length = r.cond.length
    rw [h, hl]
  unfold calcPredictionVector
  rw [this]
  rfl

theorem alike_calcCriterion (hE : CondFree E) (hl : d.length = c.length) (y : List Label) (v : List Nat) (kw : Kw) :
    Alike c d (calcCriterion E y v kw) (calcCriterion E y v kw) := by
  unfold calcCriterion
  refine alike_get fun r h => ?_
  cases E.kind with
  | regression =>
    simp only [calcPredictionVector_recond hl h]
    exact alike_bind (alike_ofExcept _) fun _ => alike_bind (alike_ofExcept _) fun _ => alike_bind (alike_ofExcept _) fun _ =>
      alike_bind (alike_ofExcept _) fun _ => alike_bind (alike_modify (fun _ => rfl) fun _ => rfl) fun _ => alike_check hE _
  | classification =>
    refine alike_bind (alike_ofExcept (r.getPrediction E)) fun p => ?_
    cases p with
    | none => exact alike_throw _
    | some p =>
      exact alike_bind (alike_ofExcept _) fun _ => alike_bind (alike_modify (fun _ => rfl) fun _ => rfl) fun _ => alike_check hE _

theorem alike_calcTest (hE : CondFree E) (hl : d.length = c.length) (y : List Label) (v : List Nat) (kw : Kw) (a : String) :
    Alike c d (calcTest E y v kw a) (calcTest E y v kw a) := by
  unfold calcTest
  exact alike_if (alike_calcCriterion hE hl y v kw) (alike_if (alike_modify (fun _ => rfl) fun _ => rfl) (alike_throw _))

/-- What `fit`, `eval` and `predict` need of the two conditions and of the features given to each -/
structure SameView (c d : Cond) (xs xs' : Option Xs) : Prop where
  len : d.length = c.length
  some_iff : xs'.isSome = xs.isSome
  view : ∀ x x', xs = some x → xs' = some x' → x'.length = x.length ∧ Rule.evaluate d x' = Rule.evaluate c x

theorem evaluateActivation_recond {x x' : Xs} (h : Rule.evaluate d x' = Rule.evaluate c x) {r : Rule} (hr : r.cond = c) :
    (recond d r).evaluateActivation E x' = r.evaluateActivation E x := by
  unfold evaluateActivation
  show (Rule.evaluate d x' >>= _) = _
  rw [h, hr]

theorem alike_calcActivation (hE : CondFree E) {xs xs' : Option Xs} (h : SameView c d xs xs') :
    Alike c d (calcActivation E xs) (calcActivation E xs') := by
  have hs := h.some_iff
  cases xs with
  | none =>
    cases xs' with
    | some _ => cases hs
    | none =>
      unfold calcActivation
      exact alike_get fun r h => alike_if (alike_throw _) (alike_pure _)
  | some x =>
    cases xs' with
    | none => cases hs
    | some x' =>
      obtain ⟨h1, h2⟩ := h.view x x' rfl rfl
      simp only [calcActivation, h1]
      refine alike_if (alike_pure _) (alike_get fun r hr => ?_)
      rw [evaluateActivation_recond h2 hr]
      exact alike_bind (alike_ofExcept _) fun _ => alike_bind (alike_modify (fun _ => rfl) fun _ => rfl) fun _ => alike_check hE _

theorem any_empty {xs xs' : Option Xs} (h : SameView c d xs xs') : xs'.any (fun x => x.length = 0) = xs.any (fun x => x.length = 0) := by
  have hs := h.some_iff
  cases xs with
  | none => cases xs' with
    | some _ => cases hs
    | none => rfl
  | some x => cases xs' with
    | none => cases hs
    | some x' => simp [(h.view x x' rfl rfl).1]

theorem isNone_view {xs xs' : Option Xs} (h : SameView c d xs xs') : xs'.isNone = xs.isNone := by
  have hs := h.some_iff
  cases xs <;> cases xs' <;> simp_all

theorem alike_fit (hE : CondFree E) {xs xs' : Option Xs} (h : SameView c d xs xs') (y : List Label) (force : Bool) (kw : Kw) :
    Alike c d (fit E y xs force kw) (fit E y xs' force kw) := by
  unfold fit
  rw [any_empty h, isNone_view h]
  refine alike_if (alike_throw _) (alike_get fun r hr => alike_if (alike_pure _) (alike_if (alike_pure _) ?_))
  exact alike_bind (alike_calcActivation hE h) fun _ => alike_bind (alike_attrLoop hE (alike_calcTrain hE y kw) force _) fun _ =>
    alike_bind (alike_checkAllIfGood hE) fun _ => alike_modify (fun _ => rfl) fun _ => rfl

theorem alike_evalActivation (hE : CondFree E) {xs xs' : Option Xs} (h : SameView c d xs xs') (recompute : Bool) :
    Alike c d (evalActivation E xs recompute) (evalActivation E xs' recompute) := by
  unfold evalActivation recomputeIf
  refine alike_bind (alike_if (alike_calcActivation hE h) (alike_pure _)) fun _ => alike_get fun r hr => ?_
  show Alike c d (match r.act with | none => _ | some v => _) (match r.act with | none => _ | some v => _)
  cases r.act with
  | none => exact alike_throw _
  | some own =>
    have hs := h.some_iff
    cases xs with
    | none =>
      cases xs' with
      | some _ => cases hs
      | none => exact alike_pure _
    | some x =>
      cases xs' with
      | none => cases hs
      | some x' =>
        obtain ⟨h1, h2⟩ := h.view x x' rfl rfl
        simp only [evaluateActivation_recond h2 hr]
        exact alike_if (alike_pure _) (alike_ofExcept _)

theorem foldl_setNaN_recond (l : List String) (r : Rule) :
    l.foldl (fun r a => setNaN a r) (recond d r) = recond d (l.foldl (fun r a => setNaN a r) r) := by
  induction l generalizing r with
  | nil => rfl
  | cons n l ih =>
    simp only [List.foldl_cons]
    rw [setNaN_recond, ih]

theorem foldl_setNaN_cond (l : List String) (r : Rule) : (l.foldl (fun r a => setNaN a r) r).cond = r.cond := by
  induction l generalizing r with
  | nil => rfl
  | cons n l ih =>
    simp only [List.foldl_cons]
    rw [ih, setNaN_cond]

theorem alike_eval (hE : CondFree E) {xs xs' : Option Xs} (h : SameView c d xs xs') (y : List Label) (recompute force : Bool) (kw : Kw) :
    Alike c d (eval E y xs recompute force kw) (eval E y xs' recompute force kw) := by
  unfold eval
  rw [any_empty h]
  refine alike_if (alike_throw _) (alike_get fun r hr => alike_if ?_ (alike_if (alike_pure _) ?_))
  · refine alike_modify (fun r => ?_) fun r => ?_
    · rw [← foldl_setNaN_recond]
      rfl
    · rw [foldl_setNaN_cond]
  · exact alike_bind (alike_evalActivation hE h recompute) fun v => alike_bind (alike_attrLoop hE (alike_calcTest hE h.len y v kw) force _) fun _ =>
      alike_bind (alike_checkAllIfGood hE) fun _ => alike_modify (fun _ => rfl) fun _ => rfl

theorem predict_recond {x x' : Xs} (h : Rule.evaluate d x' = Rule.evaluate c x) {r : Rule} (hr : r.cond = c) :
    (recond d r).predict E (some x') = r.predict E (some x) := by
  unfold predict
  simp only [evaluateActivation_recond h hr]
  rfl

end Verif.Scales
