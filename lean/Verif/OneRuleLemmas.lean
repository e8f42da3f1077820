import Verif.OneRuleSpec
import Verif.WeightRatioLemmas
import Verif.RowOrderLemmas
import Verif.PredictLemmas

/-!
# Lemmas on rulesets of one rule
-/

namespace Verif.OneRule

open Verif Vote Spec RuleSet RuleSetProps

variable {R : RsEnv}

theorem evaluate_size {c : Cond} {xs : Xs} {v : List Nat} (h : Rule.evaluate c xs = .ok v) : v.length = xs.length := by
  cases xs with
  | arr m =>
    obtain ⟨n, rows⟩ := m
    rcases RowOrder.evaluate_rows c n with ⟨e, he⟩ | ⟨f, hf⟩
    · exact absurd ((he rows).symm.trans h) (by simp)
    · have := Except.ok.inj ((hf rows).symm.trans h)
      rw [← this, List.length_map]
      rfl
  | frame m =>
    obtain ⟨n, rows⟩ := m
    rcases RowOrder.evaluateFrame_rows c n with ⟨e, he⟩ | ⟨f, hf⟩
    · exact absurd ((he rows).symm.trans h) (by simp)
    · have := Except.ok.inj ((hf rows).symm.trans h)
      rw [← this, List.length_map]
      rfl

/-- What the activations are -/
theorem activation_cases {E : Env} {xs : Option Xs} {r : Rule} (h : OnPoints xs r) :
    (∃ e, xs ≠ none ∧ activationOf E xs r = .error e ∧ Rule.predict E r xs = .error e) ∨
    (activationOf E xs r = .ok none ∧ Rule.predict E r xs = .error .valueError) ∨
    ∃ v, activationOf E xs r = .ok (some v) ∧ v ≠ [] ∧ (∀ a ∈ v, a ≤ 1) ∧
      (∀ x, xs = some x → r.evaluateActivation E x = .ok v) ∧ (xs = none → r.activation = some v) := by
  cases xs with
  | none =>
    cases ha : r.act with
    | none =>
      have : r.activation = none := by simp [Rule.activation, ha]
      refine .inr (.inl ⟨by simp [activationOf, this], ?_⟩)
      unfold Rule.predict
      simp [this, bind, Except.bind]
    | some v =>
      by_cases hv : v = []
      · have : r.activation = none := by simp [Rule.activation, ha, hv]
        refine .inr (.inl ⟨by simp [activationOf, this], ?_⟩)
        unfold Rule.predict
        simp [this, bind, Except.bind]
      · have : r.activation = some v := by simp [Rule.activation, ha, hv]
        exact .inr (.inr ⟨v, by simp [activationOf, this], hv, h.2 rfl v ha, by simp, fun _ => this⟩)
  | some x =>
    cases he : r.evaluateActivation E x with
    | error e =>
      refine .inl ⟨e, by simp, by simp [activationOf, he, Except.map], ?_⟩
      unfold Rule.predict
      simp [he, bind, Except.bind]
    | ok v =>
      have hv : Rule.evaluate r.cond x = .ok v := by
        unfold Rule.evaluateActivation at he
        simp only [bind, Except.bind] at he
        cases h1 : Rule.evaluate r.cond x with
        | error e => rw [h1] at he; cases he
        | ok u =>
          rw [h1] at he
          simp only at he
          cases h2 : E.store u with
          | error e => rw [h2] at he; cases he
          | ok _ => rw [h2] at he; cases he; rfl
      refine .inr (.inr ⟨v, by simp [activationOf, he, Except.map], ?_, WeightRatio.evaluate_le hv, ?_, by simp⟩)
      · intro h0
        have := evaluate_size hv
        rw [h0] at this
        exact h.1 x rfl this.symm
      · intro x' hx
        cases hx
        exact he

theorem predict_on {E : Env} {xs : Option Xs} {r : Rule} {v : List Nat} (h1 : ∀ x, xs = some x → r.evaluateActivation E x = .ok v)
    (h2 : xs = none → r.activation = some v) :
    Rule.predict E r xs = (match r.getPrediction E with
      | .error e => .error e
      | .ok none => .ok (v.map fun _ => .num .nan)
      | .ok (some (.text s)) =>
        if s = "nan" then .error .valueError else .ok (v.map fun a : Nat => if a = 1 then .text (Rule.truncate s) else .text "nan")
      | .ok (some (.num x)) => .ok (v.map fun a : Nat => .num (if a = 1 then x else .nan))) := by
  unfold Rule.predict
  cases xs with
  | none =>
    simp only [h2 rfl, bind, Except.bind]
    cases r.getPrediction E with
    | error e => rfl
    | ok o => cases o with
      | none => rfl
      | some l => cases l <;> rfl
  | some x =>
    simp only [h1 x rfl, bind, Except.bind]
    cases r.getPrediction E with
    | error e => rfl
    | ok o => cases o with
      | none => rfl
      | some l => cases l <;> rfl

theorem div_one (x : Num) : Num.div x (.fin 1) = x := by
  cases x <;> simp [Num.div] <;> norm_num

theorem zip_self {α β γ} (f : α → β → γ) (g : Nat → α) (h : Nat → β) (v : List Nat) :
    List.zipWith f (v.map g) (v.map h) = v.map fun a => f (g a) (h a) := by
  induction v with
  | nil => rfl
  | cons a v ih => simp [ih]

/-- The means of one rule -/
theorem means_one {S : SetEnv} {xs : Option Xs} {r : Rule} {v : List Nat} (ha : activationOf S.env xs r = .ok (some v)) (hv : v ≠ [])
    (hb : ∀ a ∈ v, a ≤ 1) (hl : r.length ≠ 0) (ht : NoText S.env r) :
    (equalRegressor S xs [r]).1 = (match r.getPrediction S.env with
      | .error e => .error e
      | .ok none => .ok (v.map fun _ => .nan)
      | .ok (some (.text _)) => .error .typeError
      | .ok (some (.num x)) => .ok (v.map fun a : Nat => if a = 1 then x else .nan)) := by
  have hv' : ¬ v.length = 0 := by simpa using hv
  unfold equalRegressor
  rw [Py.bind_ok (Py.get_run _)]
  rw [if_neg (by simp)]
  have hstep : equalLoop S xs 0 [r] none [r] = (equalStep S xs 0 r none >>= fun acc => pure acc) [r] := rfl
  have key : ∀ p : Except Err (List Num), firstVector S.env r v = p →
      (equalStep S xs 0 r none >>= fun acc => pure acc) [r] = (p.map fun p => some (aliased S xs 0 r, p, v), [r]) := by
    intro p hp
    unfold equalStep
    rw [ha]
    simp only [Py.bind_run, Py.ofExcept_run, if_neg hv', hp]
    cases p <;> rfl
  have hfirst : firstVector S.env r v = (match r.getPrediction S.env with
      | .error e => .error e
      | .ok none => .ok (v.map fun _ => .nan)
      | .ok (some (.text _)) => .error .typeError
      | .ok (some (.num x)) => .ok (v.map fun a : Nat => if a = 0 then .nan else Num.mul x (.fin a))) := by
    have hnum : ∀ g : Nat → Num, Rule.numbers (v.map fun a => Label.num (g a)) = .ok (v.map g) := by
      intro g
      have := Vote.numbers_map_num (v.map g)
      rwa [List.map_map] at this
    unfold firstVector Rule.calcPredictionVector
    simp only [bind, Except.bind]
    cases hp : r.getPrediction S.env with
    | error e => rfl
    | ok o =>
      cases o with
      | none => exact hnum fun _ => .nan
      | some l =>
        cases l with
        | text t => exact absurd hp (ht t)
        | num x => simp [hl, hnum]
  have hdiv : ∀ g : Nat → Num, zipOp Num.div (v.map g) (v.map fun a : Nat => Num.fin a) = .ok (v.map fun a : Nat => Num.div (g a) (.fin a)) := by
    intro g
    unfold zipOp
    rw [if_pos (by simp), zip_self]
  have hk := key _ hfirst
  rw [← hstep] at hk
  cases hp : r.getPrediction S.env with
  | error e =>
    rw [hp] at hk
    rw [Py.bind_err hk]
  | ok o =>
    cases o with
    | none =>
      rw [hp] at hk
      rw [Py.bind_ok hk]
      simp only [Py.ofExcept_run]
      rw [hdiv]
      simp only [Num.div]
    | some l =>
      cases l with
      | text t => exact absurd hp (ht t)
      | num x =>
        rw [hp] at hk
        rw [Py.bind_ok hk]
        simp only [Py.ofExcept_run]
        rw [hdiv]
        congr 1
        refine List.map_congr_left fun a ha => ?_
        have := hb a ha
        rcases (by omega : a = 0 ∨ a = 1) with rfl | rfl
        · simp [Num.div]
        · simp only [Nat.one_ne_zero, if_false, if_true, Nat.cast_one, WeightRatio.mul_one, div_one]

/-- The weighted mean of one rule -/
theorem weighted_one {S : SetEnv} {xs : Option Xs} {r : Rule} {v : List Nat} {w : Weights} {c : Rat} (ha : activationOf S.env xs r = .ok (some v))
    (hv : v ≠ []) (hb : ∀ a ∈ v, a ≤ 1) (hl : r.length ≠ 0) (hw : w (S.condStr r.cond) = some (.fin c)) (hc : c ≠ 0)
    {o : Option Label} (hp : r.getPrediction S.env = .ok o) (ho : o = none ∨ ∃ q, o = some (.num (.fin q))) :
    weightedRegressor S [r] w xs = .ok (v.map fun a : Nat => match o with | some (.num x) => if a = 1 then x else .nan | _ => .nan) := by
  have hv' : ¬ v.length = 0 := by simpa using hv
  have hw' : weightOf w (S.condStr r.cond) = some (.fin c) := by
    have hbeq : (Num.fin c).beq (.fin 0) = false := by
      rcases lt_or_gt_of_ne hc with h | h
      · simp [Num.beq, Num.le, not_le.2 h]
      · simp [Num.beq, Num.le, not_le.2 h]
    simp [weightOf, hw, hbeq, Num.isNaN]
  have hnum : ∀ g : Nat → Num, Rule.numbers (v.map fun a => Label.num (g a)) = .ok (v.map g) := by
    intro g
    have := Vote.numbers_map_num (v.map g)
    rwa [List.map_map] at this
  have hfirst : firstVector S.env r v = .ok (v.map fun a : Nat => match o with | some (.num x) => if a = 0 then .nan else Num.mul x (.fin a) | _ => .nan) := by
    unfold firstVector Rule.calcPredictionVector
    rcases ho with rfl | ⟨q, rfl⟩
    · simp only [bind, Except.bind, hp]
      exact hnum fun _ => .nan
    · simp [bind, Except.bind, hp, hl, hnum]
  unfold weightedRegressor
  rw [if_neg (by simp)]
  simp only [List.foldlM_cons, List.foldlM_nil, weightedStep, hw', ha, hfirst, bind, Except.bind, if_neg hv', pure, Except.pure, scale, List.map_map]
  unfold zipOp
  rw [if_pos (by simp), zip_self]
  congr 1
  refine List.map_congr_left fun a h => ?_
  have := hb a h
  rcases ho with rfl | ⟨q, rfl⟩
  · rfl
  · rcases (by omega : a = 0 ∨ a = 1) with rfl | rfl
    · rfl
    · simp [Num.mul, Num.div, hc]

/-- The votes of one rule which is active somewhere -/
theorem votes_one {S : SetEnv} {xs : Option Xs} {r : Rule} {v : List Nat} {w : Weights} {c : Rat} (hw : w (S.condStr r.cond) = some (.fin c)) (hc : c ≠ 0) (ha : activationOf S.env xs r = .ok (some v))
    (hb : ∀ a ∈ v, a ≤ 1) (h1 : 1 ∈ v) :
    weightedClassifier S [r] w xs = (match r.getPrediction S.env with
      | .error e => .error e
      | .ok none => .error .typeError
      | .ok (some l) => .ok (v.map fun a : Nat => if a = 1 then l else .num .nan)) := by
  have hn : ¬ Rule.nones v = 0 := by
    unfold Rule.nones
    rw [List.length_eq_zero_iff, List.filter_eq_nil_iff]
    intro h
    exact h 1 h1 (by simp)
  unfold weightedClassifier
  rw [if_neg (by simp)]
  have hbeq : (Num.fin c).beq (.fin 0) = false := by
    rcases lt_or_gt_of_ne hc with h | h
    · simp [Num.beq, Num.le, not_le.2 h]
    · simp [Num.beq, Num.le, not_le.2 h]
  have hw : weightOf w (S.condStr r.cond) = some (.fin c) := by
    simp [weightOf, hw, hbeq, Num.isNaN]
  simp only [List.foldlM_cons, List.foldlM_nil, classStep, hw, ha, bind, Except.bind, if_neg hn]
  cases hp : r.getPrediction S.env with
  | error e => rfl
  | ok o =>
    cases o with
    | none => rfl
    | some l =>
      simp only [addRow, pure, Except.pure, List.length_cons, List.length_nil]
      rw [if_neg (by omega)]
      congr 1
      unfold columns
      simp only [List.map_cons, List.map_nil, List.map_map]
      apply List.ext_getElem
      · simp [scale]
      · intro i h2 h3
        simp only [List.length_map] at h3
        have := hb v[i] (List.getElem_mem h3)
        simp only [List.getElem_map, List.getElem_range, Function.comp]
        rw [List.getElem?_eq_getElem (by simpa [scale] using h3)]
        simp only [scale, List.getElem_map, Option.getD_some]
        generalize v[i] = a at this
        rcases (by omega : a = 0 ∨ a = 1) with rfl | rfl
        · simp [decideClass, nanmax, Num.dropna, Num.isNaN, Num.mul, Num.beq, Num.le]
        · have hc' : (Num.fin c).beq (.fin c) = true := by simp [Num.beq, Num.le]
          simp [decideClass, nanmax, Num.dropna, Num.isNaN, Num.mul, hbeq, hc']

/-- Predictions of a ruleset which are not stacked -/
theorem predict_unstacked {xs : Option Xs} {w : Option WeightsArg} {s : RuleSet} {m : Member} (h : HasOne s m) (hs : R.stackedFit = false ∨ s.stacked = none) :
    (RuleSet.predict R xs w s).1 = (match weightsOf R m.kind [m] w with
      | .error e => .error e
      | .ok w => ((Vote.predictUnstacked (voteEnv R m.kind) w xs [m.rule]).1).map fun l => l.map Cell.label) := by
  have hun : (RuleSet.predictUnstacked R m.kind xs w s).1 = (match weightsOf R m.kind [m] w with
      | .error e => .error e
      | .ok w => ((Vote.predictUnstacked (voteEnv R m.kind) w xs [m.rule]).1).map fun l => l.map Cell.label) := by
    unfold RuleSet.predictUnstacked
    rw [Py.bind_ok (Py.get_run s)]
    simp only [h.rules, List.map_cons, List.map_nil]
    cases weightsOf R m.kind [m] w with
    | error e => rfl
    | ok w =>
      rw [Py.bind_ok (Py.ofExcept_run _ _)]
      dsimp only
      generalize Vote.predictUnstacked (voteEnv R m.kind) w xs [m.rule] = p
      obtain ⟨res, left⟩ := p
      cases res <;> rfl
  unfold RuleSet.predict
  rw [Py.bind_ok (Py.get_run s), if_neg (by simp [h.rules])]
  simp only [h.type]
  rcases hs with hs | hs
  · rw [hs]
    exact hun
  · rw [hs]
    cases R.stackedFit <;> exact hun

end Verif.OneRule
