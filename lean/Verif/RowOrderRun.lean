import Verif.RowOrderLemmas

/-!
# Lemmas: two runs of `fit` and `eval` on the same points in two orders
-/

namespace Verif.RowOrder

open Verif Spec RFun Rule

/-- Equal but for the activation vectors, which `P` relates -/
def Near (P : Option (List Nat) → Option (List Nat) → Prop) (r r' : Rule) : Prop := r' = { r with act := r'.act } ∧ P r.act r'.act

/-- The same vector, or the same entries in another order -/
def Weak (a a' : Option (List Nat)) : Prop := a = a' ∨ ∃ v v', a = some v ∧ a' = some v' ∧ v.Perm v'

/-- Two activations of the same points -/
def Strong (y y' : List Label) (a a' : Option (List Nat)) : Prop := ∃ v v', a = some v ∧ a' = some v' ∧ SameActive v y v' y'

theorem Strong.weak {y y' : List Label} {a a' : Option (List Nat)} (h : Strong y y' a a') : Weak a a' := by
  obtain ⟨v, v', h1, h2, h3⟩ := h
  exact .inr ⟨v, v', h1, h2, SamePairs.left h3⟩

variable {E : Env} {P : Option (List Nat) → Option (List Nat) → Prop}

/-! ## Attributes -/

theorem getCoverage_order {r : Rule} {a : Option (List Nat)} (h : Weak r.act a) : ({ r with act := a } : Rule).getCoverage = r.getCoverage := by
  unfold getCoverage
  rcases h with h | ⟨v, v', h, rfl, hp⟩
  · rw [← h]
  · rw [h]
    simp only [hp.length_eq, nones_perm hp]

theorem getattr_order (hE : OrderFree E) {r : Rule} {a : Option (List Nat)} (h : Weak r.act a) :
    ({ r with act := a } : Rule).getattr E = r.getattr E := by
  funext name
  have hext : E.extra { { r with act := a } with fitted := false, evaluated := false, log := [] } name =
      E.extra { r with fitted := false, evaluated := false, log := [] } name := by
    obtain ⟨cond, act, f1, f2, f3, f4, f5, f6, f7, f8, f9, f10, f11, f12, f13, f14⟩ := r
    rcases h with h | ⟨v, v', h, rfl, hp⟩
    · simp only at h
      subst h
      rfl
    · simp only at h
      subst h
      exact (hE.extra ⟨cond, some v, f1, f2, f3, f4, f5, f6, f7, f8, f9, f10, f11, false, false, []⟩ v v' name hp).symm
  have hsome : a.isSome = r.act.isSome := by
    rcases h with h | ⟨v, v', h, rfl, hp⟩
    · rw [h]
    · rw [h]; rfl
  unfold getattr
  rw [getCoverage_order h, hext]
  simp only [hsome]
  rfl

theorem accepts_near (hE : OrderFree E) (hP : ∀ a a', P a a' → Weak a a') {r r' : Rule} (h : Near P r r') (t : Thresholds.Limits) (name : String) :
    r'.accepts E t name = r.accepts E t name := by
  unfold accepts
  rw [h.1, getattr_order hE (hP _ _ h.2)]

/-! ## Programs -/

/-- Two programs with the same outcome, from related rules to related rules -/
def Both {α : Type} (P : Option (List Nat) → Option (List Nat) → Prop) (m m' : Py Rule α) : Prop :=
  ∀ r r', Near P r r' → (m r).1 = (m' r').1 ∧ Near P (m r).2 (m' r').2

theorem both_pure {α : Type} (a : α) : Both P (pure a) (pure a) := fun _ _ h => ⟨rfl, h⟩

theorem both_throw {α : Type} (e : Err) : Both P (Py.throw e : Py Rule α) (Py.throw e) := fun _ _ h => ⟨rfl, h⟩

theorem both_ofExcept {α : Type} {x x' : Except Err α} (hx : x = x') : Both P (Py.ofExcept x) (Py.ofExcept x') := by
  intro r r' h
  rw [hx]
  exact ⟨rfl, h⟩

theorem both_bind {α β : Type} {m m' : Py Rule α} {f f' : α → Py Rule β} (hm : Both P m m') (hf : ∀ a, Both P (f a) (f' a)) :
    Both P (m >>= f) (m' >>= f') := by
  intro r r' h
  obtain ⟨h1, h2⟩ := hm r r' h
  rw [Py.bind_run, Py.bind_run]
  rcases hr : m r with ⟨x, s⟩
  rcases hr' : m' r' with ⟨x', s'⟩
  rw [hr, hr'] at h1 h2
  simp only at h1 h2
  subst h1
  cases x with
  | error e => exact ⟨rfl, h2⟩
  | ok a => exact hf a s s' h2

theorem both_get {α : Type} {f f' : Rule → Py Rule α} (h : ∀ r r', Near P r r' → Both P (f r) (f' r')) :
    Both P (Py.get >>= f) (Py.get >>= f') := by
  intro r r' hr
  rw [Py.bind_ok (Py.get_run r), Py.bind_ok (Py.get_run r')]
  exact h r r' hr r r' hr

theorem both_modify {f : Rule → Rule} (hf : ∀ r a, f { r with act := a } = { f r with act := a }) (ha : ∀ r, (f r).act = r.act) :
    Both P (Py.modify f) (Py.modify f) := by
  intro r r' ⟨h1, h2⟩
  refine ⟨rfl, ?_, ?_⟩
  · show f r' = { f r with act := (f r').act }
    rw [ha, ← hf, ← h1]
  · show P (f r).act (f r').act
    rw [ha, ha]
    exact h2

/-- The same change with what was computed in the two runs -/
theorem both_if {α : Type} {b b' : Bool} {m n m' n' : Py Rule α} (hb : b = b') (h1 : Both P m m') (h2 : Both P n n') :
    Both P (if b then m else n) (if b' then m' else n') := by
  subst hb
  cases b
  · exact h2
  · exact h1

theorem both_checkOne (hE : OrderFree E) (hP : ∀ a a', P a a' → Weak a a') (t : Thresholds.Limits) (name : String) :
    Both P (checkOne E t name) (checkOne E t name) := by
  unfold checkOne
  refine both_get fun r r' h => both_bind (both_ofExcept (accepts_near hE hP h t name).symm) fun b => ?_
  refine both_bind (both_modify (fun _ _ => rfl) fun _ => rfl) fun _ => ?_
  refine both_if rfl (both_pure _) (both_bind (both_modify (fun _ _ => rfl) fun _ => rfl) fun _ => both_pure _)

theorem both_check (hE : OrderFree E) (hP : ∀ a a', P a a' → Weak a a') (name : String) : Both P (check E name) (check E name) := by
  unfold check
  cases E.thresholds with
  | none => exact both_pure _
  | some t => exact both_bind (both_checkOne hE hP t name) fun _ => both_pure _

theorem both_checkEach (hE : OrderFree E) (hP : ∀ a a', P a a' → Weak a a') (t : Thresholds.Limits) (l : List String) :
    Both P (checkEach E t l) (checkEach E t l) := by
  induction l with
  | nil => exact both_pure _
  | cons a l ih =>
    unfold checkEach
    exact both_bind (both_checkOne hE hP t a) fun b => both_if rfl ih (both_pure _)

theorem both_checkAll (hE : OrderFree E) (hP : ∀ a a', P a a' → Weak a a') : Both P (Rule.checkAll E) (Rule.checkAll E) := by
  unfold Rule.checkAll
  cases E.thresholds with
  | none => exact both_pure _
  | some t => exact both_checkEach hE hP t _

theorem near_good {r r' : Rule} (h : Near P r r') : r.good = r'.good := by rw [h.1]

theorem near_prediction {r r' : Rule} (h : Near P r r') : r'.prediction = r.prediction := by rw [h.1]

theorem near_cond {r r' : Rule} (h : Near P r r') : r'.cond = r.cond := by rw [h.1]

theorem both_checkIfGood (hE : OrderFree E) (hP : ∀ a a', P a a' → Weak a a') (name : String) :
    Both P (checkIfGood E name) (checkIfGood E name) := by
  unfold checkIfGood
  exact both_get fun r r' h => both_if (near_good h) (both_check hE hP name) (both_pure _)

theorem both_checkAllIfGood (hE : OrderFree E) (hP : ∀ a a', P a a' → Weak a a') : Both P (checkAllIfGood E) (checkAllIfGood E) := by
  unfold checkAllIfGood
  exact both_get fun r r' h => both_if (near_good h) (both_checkAll hE hP) (both_pure _)

theorem setNaN_act (a : String) (r : Rule) : (setNaN a r).act = r.act := by
  unfold setNaN
  split
  · rfl
  · split
    · rfl
    · split
      · rfl
      · split
        · rfl
        · split
          · rfl
          · split
            · rfl
            · split <;> rfl

theorem setNaN_with (n : String) (r : Rule) (a : Option (List Nat)) : setNaN n { r with act := a } = { setNaN n r with act := a } := by
  unfold setNaN
  split
  · rfl
  · split
    · rfl
    · split
      · rfl
      · split
        · rfl
        · split
          · rfl
          · split
            · rfl
            · split <;> rfl

theorem both_attrLoop (hE : OrderFree E) (hP : ∀ a a', P a a' → Weak a a') {compute compute' : String → Py Rule Unit}
    (hc : ∀ a, Both P (compute a) (compute' a)) (force : Bool) (l : List String) :
    Both P (attrLoop E compute force l) (attrLoop E compute' force l) := by
  induction l with
  | nil => exact both_pure _
  | cons a l ih =>
    unfold attrLoop
    refine both_get fun r r' h => both_if (by rw [near_good h]) ?_ ?_
    · exact both_bind (both_modify (fun r b => setNaN_with a r b) (setNaN_act a)) fun _ => ih
    · exact both_bind (hc a) fun _ => both_bind (both_checkIfGood hE hP a) fun _ => ih

/-! ## Figures -/

/-- The number of a target -/
def toNum : Label → Num
  | .num x => x
  | .text _ => .nan

theorem numbers_cases (y : List Label) : (numbers y = .error .typeError ∧ ∃ s, Label.text s ∈ y) ∨
    (numbers y = .ok (y.map toNum) ∧ ∀ s, Label.text s ∉ y) := by
  induction y with
  | nil => exact .inr ⟨rfl, by simp⟩
  | cons l y ih =>
    unfold numbers at ih ⊢
    rw [List.mapM_cons]
    cases l with
    | text s => exact .inl ⟨rfl, s, by simp⟩
    | num x =>
      rcases ih with ⟨h, s, hs⟩ | ⟨h, hs⟩
      · exact .inl ⟨by rw [h]; rfl, s, by simp [hs]⟩
      · refine .inr ⟨by rw [h]; rfl, ?_⟩
        intro s hm
        rcases List.mem_cons.1 hm with e | hm
        · cases e
        · exact hs s hm

theorem numbers_perm {y y' : List Label} (h : y.Perm y') :
    (numbers y = .error .typeError ∧ numbers y' = .error .typeError) ∨ (numbers y = .ok (y.map toNum) ∧ numbers y' = .ok (y'.map toNum)) := by
  rcases numbers_cases y with ⟨h1, s, hs⟩ | ⟨h1, hs⟩
  · rcases numbers_cases y' with ⟨h2, _⟩ | ⟨h2, hs'⟩
    · exact .inl ⟨h1, h2⟩
    · exact absurd (h.mem_iff.1 hs) (hs' s)
  · rcases numbers_cases y' with ⟨h2, s, hs'⟩ | ⟨h2, _⟩
    · exact absurd (h.mem_iff.2 hs') (hs s)
    · exact .inr ⟨h1, h2⟩

theorem pairs_toNum {v v' : List Nat} {y y' : List Label} (h : SameActive v y v' y') : SamePairs v (y.map toNum) v' (y'.map toNum) := by
  have := SamePairs.map (α := Nat) (β := Label) h id toNum
  rwa [List.map_id, List.map_id] at this

variable {y y' : List Label}

/-- Both runs set the same value -/
theorem both_set {α : Type} {x x' : Except Err α} (hx : x = x') {f : α → Rule → Rule}
    (hf : ∀ v r a, f v { r with act := a } = { f v r with act := a }) (ha : ∀ v r, (f v r).act = r.act) {m m' : Py Rule Unit} (hm : Both P m m') :
    Both P (Py.ofExcept x >>= fun v => Py.modify (f v) >>= fun _ => m) (Py.ofExcept x' >>= fun v => Py.modify (f v) >>= fun _ => m') :=
  both_bind (both_ofExcept hx) fun v => both_bind (both_modify (hf v) (ha v)) fun _ => hm

theorem activation_pos {r : Rule} {v : List Nat} (h : r.act = some v) : r.activation = if v.length = 0 then none else some v := by
  unfold activation
  rw [h]

theorem both_calcPrediction (hE : OrderFree E) : Both (Strong y y') (calcPrediction E y) (calcPrediction E y') := by
  have hP : ∀ a a', Strong y y' a a' → Weak a a' := fun _ _ => Strong.weak
  unfold calcPrediction
  refine both_get fun r r' h => ?_
  obtain ⟨v, v', hv, hv', hs⟩ := h.2
  cases E.kind with
  | regression =>
    simp only [hv, hv']
    rcases numbers_perm (SamePairs.right hs) with ⟨h1, h2⟩ | ⟨h1, h2⟩
    · rw [h1, h2]
      exact both_throw _
    · rw [h1, h2]
      exact both_set (f := fun x r => { r with prediction := .label (.num x) }) (conditionalMean_order (pairs_toNum hs)) (fun _ _ _ => rfl) (fun _ _ => rfl) (both_check hE hP "prediction")
  | classification =>
    simp only [activation_pos hv, activation_pos hv']
    have hl : v.length = v'.length := (SamePairs.left hs).length_eq
    by_cases h0 : v.length = 0
    · rw [if_pos h0, if_pos (by rw [← hl]; exact h0)]
      exact both_throw _
    · rw [if_neg h0, if_neg (by rw [← hl]; exact h0)]
      exact both_set (f := fun x r => { r with prediction := .probs x }) (classProbabilities_order hs) (fun _ _ _ => rfl) (fun _ _ => rfl) (both_check hE hP "prediction")

theorem both_calcStd (hE : OrderFree E) : Both (Strong y y') (calcStd E y) (calcStd E y') := by
  have hP : ∀ a a', Strong y y' a a' → Weak a a' := fun _ _ => Strong.weak
  unfold calcStd
  refine both_get fun r r' h => ?_
  obtain ⟨v, v', hv, hv', hs⟩ := h.2
  simp only [hv, hv']
  rcases numbers_perm (SamePairs.right hs) with ⟨h1, h2⟩ | ⟨h1, h2⟩
  · rw [h1, h2]
    exact both_throw _
  · rw [h1, h2]
    exact both_set (f := fun x r => { r with std := .num (E.sqrt x) }) (conditionalVar_order (pairs_toNum hs)) (fun _ _ _ => rfl) (fun _ _ => rfl) (both_check hE hP "std")

theorem both_calcSign : Both P calcSign calcSign := by
  unfold calcSign
  refine both_get fun r r' h => ?_
  rw [near_prediction h]
  cases r.prediction with
  | none => exact both_pure _
  | probs p => exact both_throw _
  | label l =>
    cases l with
    | num x => exact both_modify (fun _ _ => rfl) fun _ => rfl
    | text s => exact both_throw _

/-- `calc_zscore` before it is set -/
def zscoreOf (E : Env) (p : Pred) (v : List Nat) (ys : List Num) (horizon : Num) : Except Err Num :=
  match p with
  | .label (.num x) => .ok (zscoreExternal E.sqrt x (nones v) ys horizon)
  | _ => if nones v = 0 then .ok .nan else .error .typeError

theorem zscoreOf_order {v v' : List Nat} {ys ys' : List Num} (hs : SamePairs v ys v' ys') (p : Pred) (k : Num) :
    zscoreOf E p v ys k = zscoreOf E p v' ys' k := by
  unfold zscoreOf
  split
  · rw [zscore_order hs]
  · rw [nones_perm hs.left]

theorem both_calcZscore (hE : OrderFree E) (k : Num) : Both (Strong y y') (calcZscore E y k) (calcZscore E y' k) := by
  have hP : ∀ a a', Strong y y' a a' → Weak a a' := fun _ _ => Strong.weak
  unfold calcZscore
  refine both_get fun r r' h => ?_
  obtain ⟨v, v', hv, hv', hs⟩ := h.2
  simp only [hv, hv']
  rcases numbers_perm (SamePairs.right hs) with ⟨h1, h2⟩ | ⟨h1, h2⟩
  · rw [h1, h2]
    exact both_throw _
  · rw [h1, h2, near_prediction h]
    exact both_set (f := fun x r => { r with zscore := .num x }) (zscoreOf_order (pairs_toNum hs) r.prediction k) (fun _ _ _ => rfl) (fun _ _ => rfl) (both_check hE hP "zscore")

/-- A criterion of no prediction -/
theorem criterion_short {ys ys' : List Num} (h : ys.Perm ys') (m : String) : regressionCriterion m [] ys = regressionCriterion m [] ys' := by
  have he : errors [] ys = errors [] ys' := by
    cases ys with
    | nil => rw [← h.nil_eq]
    | cons a l =>
      cases ys' with
      | nil => exact absurd h.length_eq (by simp)
      | cons b l' => simp [errors]
  unfold regressionCriterion mseNorm maeNorm aae mse mae
  rw [he, mean_perm h, mean_perm (h.map _), median_perm h, mean_perm (h.map _), mean_perm (h.map _)]

theorem numbers_nums (l : List Num) : numbers (l.map Label.num) = .ok l := by
  unfold numbers
  induction l with
  | nil => rfl
  | cons a l ih =>
    rw [List.map_cons, List.mapM_cons, ih]
    rfl

/-- The criterion of a regression rule before it is set -/
def criterionOf (E : Env) (r : Rule) (y : List Label) (v : List Nat) (m : String) : Except Err Num := do
  let p ← r.calcPredictionVector E (some v)
  let p ← numbers (p.getD [])
  let ys ← numbers y
  regressionCriterion m p ys

/-- Predictions of activated points: an error, no prediction, or one prediction for each point -/
theorem vector_cases (r : Rule) : (∃ e, ∀ v, r.calcPredictionVector E (some v) = .error e) ∨
    (∀ v, r.calcPredictionVector E (some v) = .ok (some [])) ∨ ∃ f : Nat → Label, ∀ v, r.calcPredictionVector E (some v) = .ok (some (v.map f)) := by
  unfold calcPredictionVector
  cases hg : r.getPrediction E with
  | error e => exact .inl ⟨e, fun v => rfl⟩
  | ok p =>
    cases p with
    | none => exact .inr (.inr ⟨_, fun v => rfl⟩)
    | some p =>
      by_cases h0 : r.length = 0
      · exact .inr (.inl fun v => by simp only [bind, Except.bind, if_pos h0])
      · cases p with
        | text s => exact .inr (.inr ⟨_, fun v => by simp only [bind, Except.bind, if_neg h0]; rfl⟩)
        | num x => exact .inr (.inr ⟨_, fun v => by simp only [bind, Except.bind, if_neg h0]; rfl⟩)

theorem vector_with (r : Rule) (a : Option (List Nat)) (v : List Nat) :
    ({ r with act := a } : Rule).calcPredictionVector E (some v) = r.calcPredictionVector E (some v) := rfl

theorem criterionOf_order {r : Rule} {v v' : List Nat} (hs : SameActive v y v' y') (m : String) :
    criterionOf E r y v m = criterionOf E r y' v' m := by
  unfold criterionOf
  have hy := numbers_perm (SamePairs.right hs)
  rcases vector_cases (E := E) r with ⟨e, h⟩ | h | ⟨f, h⟩
  · rw [h, h]
    rfl
  · rw [h, h]
    rcases hy with ⟨h1, h2⟩ | ⟨h1, h2⟩
    · rw [h1, h2]
    · rw [h1, h2]
      exact criterion_short ((SamePairs.right hs).map _) m
  · rw [h, h]
    rcases numbers_perm ((SamePairs.left hs).map f) with ⟨g1, g2⟩ | ⟨g1, g2⟩
    · simp only [bind, Except.bind, Option.getD_some, g1, g2]
    · rcases hy with ⟨h1, h2⟩ | ⟨h1, h2⟩
      · simp only [bind, Except.bind, Option.getD_some, g1, g2, h1, h2]
      · simp only [bind, Except.bind, Option.getD_some, g1, g2, h1, h2, List.map_map]
        exact criterion_order (SamePairs.map (α := Nat) (β := Label) hs (toNum ∘ f) toNum) m

theorem ofExcept_bind {α β : Type} {σ : Type} (x : Except Err α) (f : α → Except Err β) :
    (Py.ofExcept (x >>= f) : Py σ β) = (Py.ofExcept x >>= fun a => Py.ofExcept (f a)) := by
  cases x <;> rfl

theorem bind_assoc' {α β γ : Type} {σ : Type} (m : Py σ α) (f : α → Py σ β) (g : β → Py σ γ) : (m >>= f) >>= g = m >>= fun a => f a >>= g := by
  funext s
  rw [Py.bind_run, Py.bind_run, Py.bind_run]
  rcases m s with ⟨x, t⟩
  cases x with
  | error e => rfl
  | ok a =>
    dsimp only
    rw [Py.bind_run]

theorem both_calcCriterion (hE : OrderFree E) (hP : ∀ a a', P a a' → Weak a a') {v v' : List Nat} (hs : SameActive v y v' y') (kw : Kw) :
    Both P (calcCriterion E y v kw) (calcCriterion E y' v' kw) := by
  unfold calcCriterion
  refine both_get fun r r' h => ?_
  cases E.kind with
  | regression =>
    have he : criterionOf E r y v (kw.criterionMethod.getD "mse_norm") = criterionOf E r' y' v' (kw.criterionMethod.getD "mse_norm") := by
      rw [h.1]
      exact criterionOf_order hs _
    have := both_set (P := P) he (f := fun c r => { r with criterion := .num c }) (fun _ _ _ => rfl) (fun _ _ => rfl) (both_check hE hP "criterion")
    unfold criterionOf at this
    simp only [ofExcept_bind, bind_assoc'] at this
    exact this
  | classification =>
    have hg : r'.getPrediction E = r.getPrediction E := by rw [h.1]; rfl
    simp only [hg]
    refine both_bind (both_ofExcept rfl) fun p => ?_
    cases p with
    | none => exact both_throw _
    | some p => exact both_set (f := fun x r => { r with criterion := .num x }) (classificationCriterion_order hs) (fun _ _ _ => rfl) (fun _ _ => rfl) (both_check hE hP "criterion")

theorem both_calcTrain (hE : OrderFree E) (hy : y.length = y'.length) (kw : Kw) (a : String) :
    Both (Strong y y') (calcTrain E y kw a) (calcTrain E y' kw a) := by
  unfold calcTrain
  split
  · unfold calcTrainSetSize
    rw [hy]
    exact both_modify (fun _ _ => rfl) fun _ => rfl
  · split
    · exact both_calcPrediction hE
    · split
      · exact both_calcStd hE
      · split
        · exact both_calcSign
        · split
          · exact both_calcZscore hE _
          · exact both_throw _

theorem both_calcTest (hE : OrderFree E) (hP : ∀ a a', P a a' → Weak a a') {v v' : List Nat} (hs : SameActive v y v' y') (kw : Kw) (a : String) :
    Both P (calcTest E y v kw a) (calcTest E y' v' kw a) := by
  unfold calcTest
  split
  · exact both_calcCriterion hE hP hs kw
  · split
    · unfold calcTestSetSize
      rw [(SamePairs.right hs).length_eq]
      exact both_modify (fun _ _ => rfl) fun _ => rfl
    · exact both_throw _

/-! ## `fit` and `eval` -/

theorem length_order {xs xs' : Xs} (h : SamePoints xs y xs' y') : xs.length = xs'.length ∧ y.length = y'.length := by
  cases xs with
  | arr m =>
    cases xs' with
    | frame f => exact absurd h (by simp [SamePoints])
    | arr m' =>
      have := h.2.2.2.length_eq
      rw [List.length_zip, List.length_zip, h.2.1, h.2.2.1, Nat.min_self, Nat.min_self] at this
      exact ⟨by show m.rows.length = m'.rows.length; rw [h.2.1, h.2.2.1, this], this⟩
  | frame f =>
    cases xs' with
    | arr m => exact absurd h (by simp [SamePoints])
    | frame f' =>
      have := h.2.2.2.length_eq
      rw [List.length_zip, List.length_zip, h.2.1, h.2.2.1, Nat.min_self, Nat.min_self] at this
      exact ⟨by show f.rows.length = f'.rows.length; rw [h.2.1, h.2.2.1, this], this⟩

theorem evaluateActivation_order (hE : OrderFree E) {r r' : Rule} (hr : r'.cond = r.cond) {xs xs' : Xs} (h : SamePoints xs y xs' y') :
    (∃ e, r.evaluateActivation E xs = .error e ∧ r'.evaluateActivation E xs' = .error e) ∨
      ∃ v v', r.evaluateActivation E xs = .ok v ∧ r'.evaluateActivation E xs' = .ok v' ∧ SameActive v y v' y' := by
  unfold evaluateActivation
  rw [hr]
  rcases evaluate_order (c := r.cond) h with ⟨e, h1, h2⟩ | ⟨v, v', h1, h2, hs⟩
  · exact .inl ⟨e, by rw [h1]; rfl, by rw [h2]; rfl⟩
  · rw [h1, h2]
    simp only [bind, Except.bind, hE.store v v' (SamePairs.left hs)]
    cases E.store v' with
    | error e => exact .inl ⟨e, rfl, rfl⟩
    | ok u => exact .inr ⟨v, v', rfl, rfl, hs⟩

/-- The activation is computed: an error and no change, or related activations of the same points -/
theorem calcActivation_order (hE : OrderFree E) {xs xs' : Xs} (h : SamePoints xs y xs' y') (h0 : xs.length ≠ 0) {r r' : Rule} (hr : Near P r r') :
    (∃ e, calcActivation E (some xs) r = (.error e, r) ∧ calcActivation E (some xs') r' = (.error e, r')) ∨
      ((calcActivation E (some xs) r).1 = (calcActivation E (some xs') r').1 ∧
        Near (Strong y y') (calcActivation E (some xs) r).2 (calcActivation E (some xs') r').2) := by
  have h0' : xs'.length ≠ 0 := by rw [← (length_order h).1]; exact h0
  simp only [calcActivation, if_neg h0, if_neg h0']
  rw [Py.bind_ok (Py.get_run r), Py.bind_ok (Py.get_run r')]
  rcases evaluateActivation_order hE (near_cond hr) h with ⟨e, h1, h2⟩ | ⟨v, v', h1, h2, hs⟩
  · exact .inl ⟨e, by rw [h1]; rfl, by rw [h2]; rfl⟩
  · rw [h1, h2]
    refine .inr ?_
    have hn : Near (Strong y y') { r with act := some v, actCoverage := none } { r' with act := some v', actCoverage := none } := by
      refine ⟨?_, v, v', rfl, rfl, hs⟩
      rw [hr.1]
    exact both_check hE (fun _ _ => Strong.weak) "coverage" _ _ hn

/-- Related by `P`, or activations of the same points -/
def Either (P : Option (List Nat) → Option (List Nat) → Prop) (y y' : List Label) (a a' : Option (List Nat)) : Prop := P a a' ∨ Strong y y' a a'

theorem Near.imp {Q : Option (List Nat) → Option (List Nat) → Prop} {r r' : Rule} (h : Near P r r') (hi : ∀ a a', P a a' → Q a a') : Near Q r r' :=
  ⟨h.1, hi _ _ h.2⟩

theorem fit_order (hE : OrderFree E) {xs xs' : Xs} (h : SamePoints xs y xs' y') (force : Bool) (kw : Kw) {r r' : Rule} (hr : Near P r r') :
    (fit E y (some xs) force kw r).1 = (fit E y' (some xs') force kw r').1 ∧
      Near (Either P y y') (fit E y (some xs) force kw r).2 (fit E y' (some xs') force kw r').2 := by
  have hw : Near (Either P y y') r r' := hr.imp fun _ _ => .inl
  have hy := (length_order h).2
  have hP : ∀ a a', Strong y y' a a' → Weak a a' := fun _ _ => Strong.weak
  unfold fit
  cases kw.hasMethod with
  | true => exact ⟨rfl, hw⟩
  | false =>
    simp only [Bool.false_eq_true, if_false]
    rw [Py.bind_ok (Py.get_run r), Py.bind_ok (Py.get_run r')]
    simp only [Option.isNone_some, Bool.and_false, Bool.false_eq_true, if_false, Option.any_some, decide_eq_true_eq]
    rw [← (length_order h).1]
    by_cases h0 : xs.length = 0
    · rw [if_pos h0, if_pos h0]
      exact ⟨rfl, hw⟩
    · rw [if_neg h0, if_neg h0]
      have hrest : Both (Strong y y')
          (attrLoop E (calcTrain E y kw) force (trainAttrs E.kind) >>= fun _ => checkAllIfGood E >>= fun _ => Py.modify fun r => { r with fitted := true })
          (attrLoop E (calcTrain E y' kw) force (trainAttrs E.kind) >>= fun _ => checkAllIfGood E >>= fun _ => Py.modify fun r => { r with fitted := true }) :=
        both_bind (both_attrLoop hE hP (both_calcTrain hE hy kw) force _) fun _ => both_bind (both_checkAllIfGood hE hP) fun _ =>
          both_modify (fun _ _ => rfl) fun _ => rfl
      rcases calcActivation_order hE h h0 hr with ⟨e, h1, h2⟩ | ⟨h1, h2⟩
      · rw [Py.bind_err h1, Py.bind_err h2]
        exact ⟨rfl, hw⟩
      · rw [Py.bind_run, Py.bind_run]
        rcases hc : calcActivation E (some xs) r with ⟨x, s⟩
        rcases hc' : calcActivation E (some xs') r' with ⟨x', s'⟩
        rw [hc, hc'] at h1 h2
        simp only at h1 h2
        subst h1
        cases x with
        | error e => exact ⟨rfl, h2.imp fun _ _ => .inr⟩
        | ok u =>
          obtain ⟨g1, g2⟩ := hrest s s' h2
          exact ⟨g1, g2.imp fun _ _ => .inr⟩

theorem foldl_setNaN (l : List String) (r : Rule) (a : Option (List Nat)) :
    l.foldl (fun r a => setNaN a r) { r with act := a } = { l.foldl (fun r a => setNaN a r) r with act := a } := by
  induction l generalizing r with
  | nil => rfl
  | cons n l ih =>
    simp only [List.foldl_cons]
    rw [setNaN_with, ih]

theorem foldl_setNaN_act (l : List String) (r : Rule) : (l.foldl (fun r a => setNaN a r) r).act = r.act := by
  induction l generalizing r with
  | nil => rfl
  | cons n l ih =>
    simp only [List.foldl_cons]
    rw [ih, setNaN_act]

theorem evalActivation_order (hE : OrderFree E) (hP : ∀ a a', P a a' → Weak a a') {xs xs' : Xs} (h : SamePoints xs y xs' y') (h0 : xs.length ≠ 0)
    (recompute : Bool) {r r' : Rule} (hr : Near P r r') :
    Near (Either P y y') (evalActivation E (some xs) recompute r).2 (evalActivation E (some xs') recompute r').2 ∧
      ((∃ e, (evalActivation E (some xs) recompute r).1 = .error e ∧ (evalActivation E (some xs') recompute r').1 = .error e) ∨
        ∃ v v', (evalActivation E (some xs) recompute r).1 = .ok v ∧ (evalActivation E (some xs') recompute r').1 = .ok v' ∧ SameActive v y v' y') := by
  have hw : Near (Either P y y') r r' := hr.imp fun _ _ => .inl
  unfold evalActivation recomputeIf
  cases recompute with
  | true =>
    simp only [if_true]
    rcases calcActivation_order hE h h0 hr with ⟨e, h1, h2⟩ | ⟨h1, h2⟩
    · rw [Py.bind_err h1, Py.bind_err h2]
      exact ⟨hw, .inl ⟨e, rfl, rfl⟩⟩
    · rw [Py.bind_run, Py.bind_run]
      rcases hc : calcActivation E (some xs) r with ⟨x, s⟩
      rcases hc' : calcActivation E (some xs') r' with ⟨x', s'⟩
      rw [hc, hc'] at h1 h2
      simp only at h1 h2
      subst h1
      cases x with
      | error e => exact ⟨h2.imp fun _ _ => .inr, .inl ⟨e, rfl, rfl⟩⟩
      | ok u =>
        dsimp only
        rw [Py.bind_ok (Py.get_run s), Py.bind_ok (Py.get_run s')]
        obtain ⟨v, v', hv, hv', hs⟩ := h2.2
        simp only [hv, hv']
        exact ⟨h2.imp fun _ _ => .inr, .inr ⟨v, v', rfl, rfl, hs⟩⟩
  | false =>
    simp only [Bool.false_eq_true, if_false]
    rw [Py.bind_ok (Py.pure_run () r), Py.bind_ok (Py.pure_run () r'), Py.bind_ok (Py.get_run r), Py.bind_ok (Py.get_run r')]
    have hnone : (r.act = none ∧ r'.act = none) ∨ ∃ a a', r.act = some a ∧ r'.act = some a' := by
      rcases hP _ _ hr.2 with hh | ⟨v, v', h1, h2, _⟩
      · cases ha : r.act with
        | none => exact .inl ⟨rfl, by rw [← hh, ha]⟩
        | some a => exact .inr ⟨a, a, rfl, by rw [← hh, ha]⟩
      · exact .inr ⟨v, v', h1, h2⟩
    rcases hnone with ⟨g1, g2⟩ | ⟨a, a', g1, g2⟩
    · simp only [g1, g2]
      exact ⟨hw, .inl ⟨_, rfl, rfl⟩⟩
    · simp only [g1, g2]
      rcases evaluateActivation_order hE (near_cond hr) h with ⟨e, h1, h2⟩ | ⟨v, v', h1, h2, hs⟩
      · rw [h1, h2]
        exact ⟨hw, .inl ⟨e, rfl, rfl⟩⟩
      · rw [h1, h2]
        exact ⟨hw, .inr ⟨v, v', rfl, rfl, hs⟩⟩

theorem eval_order (hE : OrderFree E) (hP : ∀ a a', P a a' → Weak a a') {xs xs' : Xs} (h : SamePoints xs y xs' y') (recompute force : Bool) (kw : Kw)
    {r r' : Rule} (hr : Near P r r') :
    (eval E y (some xs) recompute force kw r).1 = (eval E y' (some xs') recompute force kw r').1 ∧
      Near (Either P y y') (eval E y (some xs) recompute force kw r).2 (eval E y' (some xs') recompute force kw r').2 := by
  have hw : Near (Either P y y') r r' := hr.imp fun _ _ => .inl
  have hQ : ∀ a a', Either P y y' a a' → Weak a a' := fun a a' hh => hh.elim (hP a a') Strong.weak
  unfold eval
  cases kw.hasMethod with
  | true => exact ⟨rfl, hw⟩
  | false =>
    simp only [Bool.false_eq_true, if_false]
    rw [Py.bind_ok (Py.get_run r), Py.bind_ok (Py.get_run r'), ← near_good hr]
    cases hg : !r.good && !force with
    | true =>
      simp only [if_true]
      exact both_modify (f := fun r => (testAttrs E.kind).foldl (fun r a => setNaN a r) { r with fitted := true })
        (fun r a => foldl_setNaN _ { r with fitted := true } a) (fun r => foldl_setNaN_act _ _) r r' hw
    | false =>
      simp only [Bool.false_eq_true, if_false, Option.any_some, decide_eq_true_eq]
      rw [← (length_order h).1]
      by_cases h0 : xs.length = 0
      · rw [if_pos h0, if_pos h0]
        exact ⟨rfl, hw⟩
      · rw [if_neg h0, if_neg h0]
        obtain ⟨hn, hv⟩ := evalActivation_order hE hP h h0 recompute hr
        rw [Py.bind_run, Py.bind_run]
        rcases hc : evalActivation E (some xs) recompute r with ⟨x, s⟩
        rcases hc' : evalActivation E (some xs') recompute r' with ⟨x', s'⟩
        rw [hc, hc'] at hn hv
        simp only at hn hv
        rcases hv with ⟨e, rfl, rfl⟩ | ⟨v, v', rfl, rfl, hs⟩
        · exact ⟨rfl, hn⟩
        · have hrest : Both (Either P y y')
              (attrLoop E (calcTest E y v kw) force (testAttrs E.kind) >>= fun _ => checkAllIfGood E >>= fun _ => Py.modify fun r => { r with evaluated := true })
              (attrLoop E (calcTest E y' v' kw) force (testAttrs E.kind) >>= fun _ => checkAllIfGood E >>= fun _ =>
                Py.modify fun r => { r with evaluated := true }) :=
            both_bind (both_attrLoop hE hQ (both_calcTest hE hQ hs kw) force _) fun _ => both_bind (both_checkAllIfGood hE hQ) fun _ =>
              both_modify (fun _ _ => rfl) fun _ => rfl
          exact hrest s s' hn

end Verif.RowOrder
