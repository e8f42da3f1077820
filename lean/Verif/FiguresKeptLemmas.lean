import Verif.FailLemmas

/-!
# Lemmas on the figures of a ruleset when an operation raises
-/

namespace Verif.FiguresKept

open Verif Vote Spec RuleSet RuleSetProps

variable {R : RsEnv}

/-- The sizes and the criterion of a ruleset -/
def figures (s : RuleSet) : Thresholds.Attr × Thresholds.Attr × Thresholds.Attr := (s.trainSize, s.testSize, s.criterion)

/-- The code never changes the figures. -/
def Never {α} (p : Py RuleSet α) : Prop := ∀ s, figures (p s).2 = figures s

/-- The code does not change the figures when it raises. -/
def OnError {α} (p : Py RuleSet α) : Prop := ∀ s e s', p s = (.error e, s') → figures s' = figures s

theorem Never.bind {α β} {p : Py RuleSet α} {f : α → Py RuleSet β} (hp : Never p) (hf : ∀ a, Never (f a)) : Never (p >>= f) := by
  intro s
  have h1 := hp s
  rcases h : p s with ⟨e | a, s1⟩
  · rw [Py.bind_err h]
    rwa [h] at h1
  · rw [Py.bind_ok h]
    rw [h] at h1
    exact (hf a s1).trans h1

theorem Never.bindError {α β} {p : Py RuleSet α} {f : α → Py RuleSet β} (hp : Never p) (hf : ∀ a, OnError (f a)) : OnError (p >>= f) := by
  intro s e s' hs
  have h1 := hp s
  rcases h : p s with ⟨e' | a, s1⟩
  · rw [Py.bind_err h] at hs
    rw [h] at h1
    cases hs
    exact h1
  · rw [Py.bind_ok h] at hs
    rw [h] at h1
    exact (hf a s1 e s' hs).trans h1

/-- What is followed by code which does not raise -/
theorem OnError.bindOk {α β} {p : Py RuleSet α} {f : α → Py RuleSet β} (hp : OnError p) (hf : ∀ a s, ∃ b s', f a s = (.ok b, s')) : OnError (p >>= f) := by
  intro s e s' hs
  rcases h : p s with ⟨e' | a, s1⟩
  · rw [Py.bind_err h] at hs
    cases hs
    exact hp s _ _ h
  · rw [Py.bind_ok h] at hs
    obtain ⟨b, s2, h2⟩ := hf a s1
    rw [h2] at hs
    cases hs

theorem Never.onError {α} {p : Py RuleSet α} (h : Never p) : OnError p := by
  intro s e s' hs
  have := h s
  rwa [hs] at this

theorem never_pure {α} (a : α) : Never (pure a) := fun _ => rfl
theorem never_throw {α} (e : Err) : Never (Py.throw e : Py RuleSet α) := fun _ => rfl
theorem never_get : Never Py.get := fun _ => rfl
theorem never_ofExcept {α} (x : Except Err α) : Never (Py.ofExcept x) := fun _ => rfl
theorem never_modify {f : RuleSet → RuleSet} (h : ∀ s, figures (f s) = figures s) : Never (Py.modify f) := h
theorem onError_modify (f : RuleSet → RuleSet) : OnError (Py.modify f) := by
  intro s e s' h
  cases h

theorem never_whenSet {c : RuleSet → Bool} {p : Py RuleSet Unit} (h : Never p) : Never (whenSet c p) := by
  refine never_get.bind fun s => ?_
  split
  · exact h
  · exact never_pure _

theorem never_computeSelf (xs : Option Xs) : Never (computeSelf R xs) :=
  never_get.bind fun _ => (never_ofExcept _).bind fun _ _ => rfl

theorem never_computeStacked (xs : Option Xs) : Never (computeStacked R xs) :=
  never_get.bind fun _ => (never_ofExcept _).bind fun _ _ => rfl

theorem never_recomputeSelf : Never (recomputeSelf R) := Never.bind (p := Py.modify _) (fun _ => rfl) fun _ => never_computeSelf none

theorem never_recomputeStacked : Never (recomputeStacked R) := Never.bind (p := Py.modify _) (fun _ => rfl) fun _ => never_computeStacked none

theorem never_stackIf {p : Py RuleSet Unit} (h : Never p) : Never (stackIf p) := by
  refine never_get.bind fun s => ?_
  split
  · exact h
  · exact never_pure _

theorem never_iaddRule (m : Member) : Never (iaddRule R m) := by
  unfold iaddRule
  refine Never.bind ?_ fun _ => Never.bind ?_ fun _ => Never.bind ?_ fun _ => Never.bind ?_ fun _ => never_stackIf ?_
  · refine never_get.bind fun s => ?_
    cases s.ruleType with
    | none => exact fun _ => rfl
    | some k =>
      simp only
      split
      · exact fun _ => rfl
      · exact never_throw _
  · cases m.rule.cond.indexes <;> exact fun _ => rfl
  · cases m.rule.cond.names <;> exact fun _ => rfl
  · refine never_get.bind fun s => ?_
    split
    · unfold updateActivation
      cases m.rule.act with
      | none => exact never_pure _
      | some v =>
        refine never_get.bind fun s => ?_
        cases s.available with
        | none =>
          simp only
          split
          · exact never_throw _
          · exact (never_ofExcept _).bind fun _ _ => rfl
        | some a => exact (never_ofExcept _).bind fun _ _ => rfl
    · exact never_pure _
  · unfold stackRule
    cases m.rule.act with
    | none => exact never_pure _
    | some v =>
      simp only
      split
      · exact never_throw _
      · refine never_get.bind fun s => ?_
        cases s.stacked with
        | none => exact fun _ => rfl
        | some c => exact (never_ofExcept _).bind fun _ _ => rfl

theorem never_append (m : Member) (b : Bool) : Never (append R m b) := by
  refine never_get.bind fun s => ?_
  split
  · exact (never_iaddRule m).bind fun _ _ => rfl
  · exact Never.bind (p := Py.modify _) (fun _ => rfl) fun _ => (never_iaddRule m).bind fun _ _ => rfl

theorem never_appendAll (l : List Member) : Never (appendAll R l) := by
  induction l with
  | nil => exact never_pure _
  | cons m l ih => exact (never_append m false).bind fun _ => ih

theorem never_clear : Never (clearActivation R) := by
  refine never_get.bind fun s => ?_
  cases s.act with
  | none => exact never_pure _
  | some v => exact (never_ofExcept _).bind fun _ _ => rfl

theorem never_dropRules (drops : List (Member × Nat)) : Never (dropRules R drops) :=
  never_get.bind fun _ => (never_ofExcept _).bind fun _ => Never.bind (p := Py.modify _) (fun _ => rfl) fun _ => never_clear.bind fun _ =>
    Never.bind (p := Py.modify _) (fun _ => rfl) fun _ => never_appendAll _

theorem never_afterFit (drops : List (Member × Nat)) (given : Bool) : Never (afterFit R drops given) := by
  unfold afterFit
  split
  · exact (never_dropRules _).bind fun _ => never_recomputeSelf.bind fun _ => never_whenSet never_recomputeStacked
  · exact (never_whenSet never_recomputeSelf).bind fun _ => never_whenSet never_recomputeStacked

theorem never_afterEval (drops : List (Member × Nat)) (given : Bool) : Never (afterEval R drops given) := by
  unfold afterEval
  split
  · exact (never_dropRules _).bind fun _ => (never_whenSet never_recomputeSelf).bind fun _ => never_whenSet never_recomputeStacked
  · exact (never_whenSet never_recomputeSelf).bind fun _ => never_whenSet never_recomputeStacked

theorem never_forRules (f : Env → Py Rule Unit) : Never (forRules R f) := fun _ => rfl

theorem never_needType : Never needType := by
  refine never_get.bind fun s => ?_
  cases s.ruleType with
  | none => exact never_throw _
  | some k => exact never_pure _

theorem never_predict (xs : Option Xs) (w : Option WeightsArg) : Never (RuleSet.predict R xs w) := by
  refine never_get.bind fun s => ?_
  split
  · exact never_pure _
  · cases s.ruleType with
    | none => exact never_pure _
    | some k =>
      have hu : Never (RuleSet.predictUnstacked R k xs w) :=
        never_get.bind fun _ => (never_ofExcept _).bind fun _ => Never.bind (p := Py.modify _) (fun _ => rfl) fun _ => (never_ofExcept _).bind fun _ => never_pure _
      cases R.stackedFit with
      | false => exact hu
      | true =>
        cases s.stacked with
        | none => exact hu
        | some c => exact (never_ofExcept _).bind fun _ => (never_ofExcept _).bind fun _ => never_ofExcept _

theorem never_criterionActivation (xs : Option Xs) : Never (criterionActivation R xs) := by
  cases xs with
  | some x => exact never_get.bind fun _ => (never_ofExcept _).bind fun _ => never_pure _
  | none =>
    refine Never.bind (never_whenSet (never_computeSelf none)) fun _ => never_get.bind fun s => ?_
    cases s.available with
    | none => exact never_throw _
    | some v => exact never_pure _

theorem onError_calcCriterion (y : List Label) (xs : Option Xs) (w : Option WeightsArg) (kw : Rule.Kw) : OnError (calcCriterion R y xs w kw) := by
  refine never_get.bindError fun s => ?_
  split
  · exact (never_pure _).onError
  · cases s.ruleType with
    | none => exact (never_pure _).onError
    | some k =>
      refine (never_predict xs w).bindError fun p => ?_
      split
      · exact onError_modify _
      · refine (never_ofExcept _).bindError fun p => ?_
        cases k with
        | classification => exact (never_criterionActivation xs).bindError fun _ => (never_ofExcept _).bindError fun _ => onError_modify _
        | regression => exact (never_ofExcept _).bindError fun _ => (never_ofExcept _).bindError fun _ => (never_ofExcept _).bindError fun _ => onError_modify _

theorem onError_fit (y : List Label) (xs : Option Xs) (force : Bool) (kw : Rule.Kw) : OnError (fit R y xs force kw) := by
  refine never_needType.bindError fun _ => ?_
  split
  · exact (never_throw _).onError
  · refine never_get.bindError fun s => ?_
    split
    · exact (never_pure _).onError
    · split
      · exact (never_pure _).onError
      · split
        · exact (never_pure _).onError
        · exact (never_forRules _).bindError fun _ => never_get.bindError fun _ => (never_afterFit _ _).bindError fun _ =>
            (onError_modify _).bindOk fun _ s => ⟨_, s, rfl⟩

theorem onError_eval (y : List Label) (xs : Option Xs) (keep : Bool) (w : Option WeightsArg) (force : Bool) (kw : Rule.Kw) :
    OnError (eval R y xs keep w force kw) := by
  refine never_needType.bindError fun _ => ?_
  split
  · exact (never_throw _).onError
  · refine never_get.bindError fun s => ?_
    split
    · exact (never_pure _).onError
    · split
      · exact (never_pure _).onError
      · split
        · exact (never_throw _).onError
        · exact (never_forRules _).bindError fun _ => never_get.bindError fun _ => (never_afterEval _ _).bindError fun _ =>
            (onError_calcCriterion _ _ _ _).bindOk fun _ s => ⟨_, _, rfl⟩

end Verif.FiguresKept
