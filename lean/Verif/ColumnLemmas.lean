import Verif.ColumnSpec
import Verif.ConditionProps
import Verif.SharedRulesLemmas
import Verif.StackedFit
import Verif.SetEval
import Verif.StackedSetLemmas
import Verif.PredictLemmas

/-!
# Lemmas: features which rules see alike
-/

namespace Verif.OnlyUsed

open Verif Spec Vote

/-- The condition gives the same on `x` and `x'`, which have as many points. -/
def Sees (c : Cond) (x x' : Xs) : Prop := x'.length = x.length ∧ Rule.evaluate c x' = Rule.evaluate c x

/-! ## Conditions -/

theorem columnOf_length (x : Xs) (f : Feature) : (columnOf x f).length = x.length := by
  cases x <;> simp [columnOf, Xs.length]

theorem evaluate_columns {c : Cond} {fs : List Feature} (h : Reach c) (hs : Shows c fs) (hne : fs ≠ []) {x : Xs} (hx : ∀ f ∈ fs, HasColumn x f) :
    Rule.evaluate c x = .ok ((List.range x.length).map fun i => flag (∀ f ∈ fs, Within f.lo f.hi (((columnOf x f)[i]?).getD .nan))) := by
  cases x with
  | arr m =>
    show Cond.evaluate c m = _
    rw [ConditionProps.C11_evaluate h hs hx]
    congr 1
    apply List.ext_getElem
    · simp [Xs.length]
    intro i h1 h2
    have hi : i < m.rows.length := by simpa using h1
    simp only [List.getElem_map, List.getElem_range]
    refine congrArg flag (propext ?_)
    unfold InBox
    refine forall_congr' fun f => forall_congr' fun _ => ?_
    simp [columnOf, hi]
  | frame m =>
    show Cond.evaluateFrame c m = _
    rw [ConditionProps.C11_evaluate_named h hs hne hx]
    congr 1
    apply List.ext_getElem
    · simp [Xs.length]
    intro i h1 h2
    have hi : i < m.rows.length := by simpa using h1
    simp only [List.getElem_map, List.getElem_range]
    refine congrArg flag (propext ?_)
    unfold InBoxNamed
    refine forall_congr' fun f => forall_congr' fun _ => ?_
    simp [columnOf, hi]

theorem sees_of {c : Cond} {x x' : Xs} (h : SameForCond c x x') : Sees c x x' := by
  obtain ⟨fs, hr, hs, hne, hc⟩ := h
  refine ⟨hc.rows, ?_⟩
  rw [evaluate_columns hr hs hne hc.has, evaluate_columns hr hs hne hc.has', hc.rows]
  congr 1
  apply List.map_congr_left
  intro i _
  refine congrArg flag (propext ?_)
  refine forall_congr' fun f => forall_congr' fun hf => ?_
  rw [hc.same f hf]

theorem cell_widened {m m' : Mat} {r r' : List Num} (hl : r.length = m.ncols) (hp : r <+: r') {j : Int} (h0 : 0 ≤ j) (hj : j < m.ncols) :
    cell m'.ncols r' j = cell m.ncols r j := by
  obtain ⟨t, rfl⟩ := hp
  unfold cell
  simp only [if_pos h0]
  rw [List.getElem?_append_left (by omega)]

theorem sameColumns_widened {m m' : Mat} (h : Widened m m') {fs : List Feature} (hf : ∀ f ∈ fs, 0 ≤ f.index ∧ f.index < m.ncols) :
    SameUsed fs (.arr m) (.arr m') := by
  refine ⟨h.rows.length_eq.symm, fun f hm => ?_, fun f hm => ?_, fun f hm => ?_⟩
  · have := hf f hm
    exact ⟨by omega, this.2⟩
  · have := hf f hm
    have := h.wider
    exact ⟨by omega, by omega⟩
  · obtain ⟨h0, hj⟩ := hf f hm
    have hrows := h.rows
    show (m'.rows.map fun r => cell m'.ncols r f.index) = m.rows.map fun r => cell m.ncols r f.index
    generalize m.rows = a, m'.rows = b at hrows
    induction hrows with
    | nil => rfl
    | cons hr _ ih => rw [List.map_cons, List.map_cons, cell_widened hr.1 hr.2 h0 hj, ih]

theorem cellNamed_of {columns : List String} {row : List Num} (hn : columns.Nodup) {n : String} {v : Num} (h : (n, v) ∈ columns.zip row) :
    cellNamed columns row n = v := by
  obtain ⟨i, hi, e⟩ := List.getElem_of_mem h
  rw [List.length_zip] at hi
  rw [List.getElem_zip] at e
  obtain ⟨e1, e2⟩ := Prod.mk.inj e
  unfold cellNamed
  rw [← e1, List.Nodup.idxOf_getElem hn, List.getElem?_eq_getElem (by omega), Option.getD_some, e2]

theorem sameColumns_more {d d' : Frame} (h : MoreColumns d d') {fs : List Feature} (hf : ∀ f ∈ fs, f.name ∈ d.columns) :
    SameUsed fs (.frame d) (.frame d') := by
  refine ⟨h.rows.length_eq.symm, hf, fun f hm => h.names (hf f hm), fun f hm => ?_⟩
  have hrows := h.rows
  show (d'.rows.map fun r => cellNamed d'.columns r f.name) = d.rows.map fun r => cellNamed d.columns r f.name
  have hn := h.once
  have hn' := h.once'
  generalize d.rows = a, d'.rows = b at hrows
  induction hrows with
  | nil => rfl
  | cons hr _ ih =>
    rename_i r r' _ _ _
    rw [List.map_cons, List.map_cons, ih]
    congr 1
    obtain ⟨i, hi, e⟩ := List.getElem_of_mem (hf f hm)
    have hmem : (f.name, r[i]'(by omega)) ∈ d.columns.zip r := by
      have : (d.columns.zip r)[i]'(by rw [List.length_zip]; omega) = (f.name, r[i]'(by omega)) := by
        rw [List.getElem_zip, e]
      rw [← this]
      exact List.getElem_mem _
    rw [cellNamed_of hn hmem, cellNamed_of hn' (hr.2 _ hmem)]

/-! ## Rules -/

section
variable {E : Env} {r : Rule} {x x' : Xs}

theorem evaluateActivation_same (h : Sees r.cond x x') : r.evaluateActivation E x' = r.evaluateActivation E x := by
  unfold Rule.evaluateActivation
  rw [h.2]

theorem calcActivation_same (h : Sees r.cond x x') : Rule.calcActivation E (some x') r = Rule.calcActivation E (some x) r := by
  unfold Rule.calcActivation
  simp only [h.1]
  split
  · rfl
  · rw [Py.bind_ok (Py.get_run r), Py.bind_ok (Py.get_run r), evaluateActivation_same h]

theorem bind_same {σ α β : Type} {m m' : Py σ α} {f : α → Py σ β} {s : σ} (h : m' s = m s) : (m' >>= f) s = (m >>= f) s := by
  rw [Py.bind_run, Py.bind_run, h]

theorem fit_same (h : Sees r.cond x x') (y : List Label) (force : Bool) (kw : Rule.Kw) :
    Rule.fit E y (some x') force kw r = Rule.fit E y (some x) force kw r := by
  unfold Rule.fit
  split
  · rfl
  · rw [Py.bind_ok (Py.get_run r), Py.bind_ok (Py.get_run r)]
    simp only [Option.isNone_some, Bool.and_false, Option.any_some, h.1]
    split
    · rfl
    · split
      · rfl
      · exact bind_same (calcActivation_same h)

theorem evalActivation_same (h : Sees r.cond x x') (recompute : Bool) :
    Rule.evalActivation E (some x') recompute r = Rule.evalActivation E (some x) recompute r := by
  unfold Rule.evalActivation Rule.recomputeIf
  cases recompute with
  | true =>
    simp only [if_true]
    exact bind_same (calcActivation_same h)
  | false =>
    simp only [Bool.false_eq_true, if_false]
    rw [Py.bind_ok (Py.pure_run () r), Py.bind_ok (Py.pure_run () r), Py.bind_ok (Py.get_run r), Py.bind_ok (Py.get_run r)]
    rw [evaluateActivation_same h]

theorem eval_same (h : Sees r.cond x x') (y : List Label) (recompute force : Bool) (kw : Rule.Kw) :
    Rule.eval E y (some x') recompute force kw r = Rule.eval E y (some x) recompute force kw r := by
  unfold Rule.eval
  split
  · rfl
  · rw [Py.bind_ok (Py.get_run r), Py.bind_ok (Py.get_run r)]
    simp only [Option.any_some, h.1]
    split
    · rfl
    · split
      · rfl
      · exact bind_same (evalActivation_same h recompute)

theorem predict_same (h : Sees r.cond x x') : Rule.predict E r (some x') = Rule.predict E r (some x) := by
  unfold Rule.predict
  simp only [evaluateActivation_same h]

end

/-! ## Rulesets -/

section
variable {R : RsEnv} {x x' : Xs}

/-- All rules see `x` and `x'` alike. -/
def AllSee (x x' : Xs) (l : List Member) : Prop := ∀ m ∈ l, Sees m.rule.cond x x'

theorem eachRule_same {f g : Env → Py Rule Unit} {l : List Member} (h : ∀ m ∈ l, ∀ E, f E m.rule = g E m.rule) :
    RuleSet.eachRule R f l = RuleSet.eachRule R g l := by
  induction l with
  | nil => rfl
  | cons m l ih =>
    unfold RuleSet.eachRule RuleSet.onRule
    rw [h m (List.mem_cons_self ..), ih fun m hm => h m (List.mem_cons_of_mem _ hm)]

theorem forRules_same {f g : Env → Py Rule Unit} {s : RuleSet} (h : ∀ m ∈ s.rules, ∀ E, f E m.rule = g E m.rule) :
    RuleSet.forRules R f s = RuleSet.forRules R g s := by
  unfold RuleSet.forRules
  rw [eachRule_same h]

theorem mapM_same {α β ε : Type} {f g : α → Except ε β} {l : List α} (h : ∀ a ∈ l, f a = g a) : l.mapM f = l.mapM g := by
  induction l with
  | nil => rfl
  | cons a l ih =>
    rw [List.mapM_cons, List.mapM_cons, h a (List.mem_cons_self ..), ih fun a ha => h a (List.mem_cons_of_mem _ ha)]

theorem activations_same {l : List Member} (h : AllSee x x' l) : RuleSet.activations R (some x') l = RuleSet.activations R (some x) l := by
  unfold RuleSet.activations
  simp only
  rw [mapM_same fun m hm => evaluateActivation_same (h m hm)]

theorem evaluateSelf_same {l : List Member} (h : AllSee x x' l) : RuleSet.evaluateSelf R (some x') l = RuleSet.evaluateSelf R (some x) l := by
  unfold RuleSet.evaluateSelf
  rw [activations_same h]

theorem evaluateStacked_same {l : List Member} (h : AllSee x x' l) : RuleSet.evaluateStacked R (some x') l = RuleSet.evaluateStacked R (some x) l := by
  unfold RuleSet.evaluateStacked
  rw [activations_same h]

theorem evaluate_same {s : RuleSet} (h : AllSee x x' s.rules) : RuleSet.evaluate R s x' = RuleSet.evaluate R s x := by
  unfold RuleSet.evaluate
  rw [mapM_same fun m hm => evaluateActivation_same (h m hm)]

theorem activationOf_same {r : Rule} (h : Sees r.cond x x') (E : Env) : activationOf E (some x') r = activationOf E (some x) r := by
  unfold activationOf
  simp only [evaluateActivation_same h]

theorem foldlM_same {α β ε : Type} {f g : β → α → Except ε β} {l : List α} (h : ∀ b, ∀ a ∈ l, f b a = g b a) (b : β) :
    l.foldlM f b = l.foldlM g b := by
  induction l generalizing b with
  | nil => rfl
  | cons a l ih =>
    rw [List.foldlM_cons, List.foldlM_cons, h b a (List.mem_cons_self ..)]
    congr 1
    funext c
    exact ih (fun b a ha => h b a (List.mem_cons_of_mem _ ha)) c

theorem weightedRegressor_same (S : SetEnv) {l : List Rule} (h : ∀ r ∈ l, Sees r.cond x x') (w : Weights) :
    weightedRegressor S l w (some x') = weightedRegressor S l w (some x) := by
  unfold weightedRegressor
  rw [foldlM_same (g := weightedStep S w (some x))]
  intro b r hr
  unfold weightedStep
  rw [activationOf_same (h r hr)]

theorem weightedClassifier_same (S : SetEnv) {l : List Rule} (h : ∀ r ∈ l, Sees r.cond x x') (w : Weights) :
    weightedClassifier S l w (some x') = weightedClassifier S l w (some x) := by
  unfold weightedClassifier
  rw [foldlM_same (g := classStep S w (some x))]
  intro b r hr
  unfold classStep
  rw [activationOf_same (h r hr)]

theorem equalLoop_same (S : SetEnv) {l : List Rule} (h : ∀ r ∈ l, Sees r.cond x x') (i : Nat) (acc : Option (Option Nat × List Num × List Nat)) :
    equalLoop S (some x') i l acc = equalLoop S (some x) i l acc := by
  induction l generalizing i acc with
  | nil => rfl
  | cons r l ih =>
    unfold equalLoop
    have e : equalStep S (some x') i r acc = equalStep S (some x) i r acc := by
      unfold equalStep aliased
      rw [activationOf_same (h r (List.mem_cons_self ..))]
      rfl
    rw [e]
    congr 1
    funext a
    exact ih (fun r hr => h r (List.mem_cons_of_mem _ hr)) _ _

theorem voteUnstacked_same (S : SetEnv) {l : List Rule} (h : ∀ r ∈ l, Sees r.cond x x') (w : Option Weights) :
    Vote.predictUnstacked S w (some x') l = Vote.predictUnstacked S w (some x) l := by
  unfold Vote.predictUnstacked
  rw [Py.bind_ok (Py.get_run l), Py.bind_ok (Py.get_run l)]
  cases S.env.kind with
  | regression =>
    cases w with
    | some w =>
      simp only [weightedRegressor_same S h]
    | none =>
      refine bind_same ?_
      unfold equalRegressor
      rw [Py.bind_ok (Py.get_run l), Py.bind_ok (Py.get_run l), equalLoop_same S h]
  | classification =>
    cases w with
    | some w => simp only [weightedClassifier_same S h]
    | none =>
      unfold equalClassifier
      simp only [weightedClassifier_same S h]

theorem predictSet_same {s : RuleSet} (h : AllSee x x' s.rules) (w : Option WeightsArg) :
    RuleSet.predict R (some x') w s = RuleSet.predict R (some x) w s := by
  have hu : ∀ k, RuleSet.predictUnstacked R k (some x') w s = RuleSet.predictUnstacked R k (some x) w s := by
    intro k
    have hl : ∀ r ∈ s.rules.map (·.rule), Sees r.cond x x' := by
      intro r hr
      obtain ⟨m, hm, rfl⟩ := List.mem_map.1 hr
      exact h m hm
    unfold RuleSet.predictUnstacked
    rw [Py.bind_ok (Py.get_run s), Py.bind_ok (Py.get_run s)]
    simp only [voteUnstacked_same _ hl]
  unfold RuleSet.predict
  rw [Py.bind_ok (Py.get_run s), Py.bind_ok (Py.get_run s)]
  split
  · rfl
  · cases s.ruleType with
    | none => rfl
    | some k =>
      simp only
      cases R.stackedFit with
      | false => exact hu _
      | true =>
        cases s.stacked with
        | none => exact hu _
        | some c =>
          unfold RuleSet.stackFor
          simp only [evaluateStacked_same h]

/-! ## Programs on rulesets -/

/-- All conditions of the rules are in `P`. -/
def Conds (P : Cond → Prop) (s : RuleSet) : Prop := ∀ m ∈ s.rules, P m.rule.cond

/-- The two programs do the same on rulesets with conditions in `P`. -/
def Same {α : Type} (P : Cond → Prop) (p q : Py RuleSet α) : Prop := ∀ s, Conds P s → p s = q s

/-- The conditions stay in `P`, whether the call raises or not. -/
def Keep {α : Type} (P : Cond → Prop) (p : Py RuleSet α) : Prop := ∀ s, Conds P s → Conds P (p s).2

variable {P : Cond → Prop} {α β : Type}

theorem same_refl (p : Py RuleSet α) : Same P p p := fun _ _ => rfl

theorem same_bind {p q : Py RuleSet α} {f g : α → Py RuleSet β} (h : Same P p q) (hk : Keep P p) (h' : ∀ a, Same P (f a) (g a)) :
    Same P (p >>= f) (q >>= g) := by
  intro s hs
  rw [Py.bind_run, Py.bind_run, ← h s hs]
  have := hk s hs
  rcases e : p s with ⟨_ | a, t⟩
  · rfl
  · rw [e] at this
    exact h' a t this

theorem same_get {f g : RuleSet → Py RuleSet β} (h : ∀ s, Conds P s → f s s = g s s) :
    Same P (Py.get >>= f) (Py.get >>= g) := by
  intro s hs
  rw [Py.bind_ok (Py.get_run s), Py.bind_ok (Py.get_run s)]
  exact h s hs

theorem keep_leaves {p : Py RuleSet α} (h : SharedRules.Leaves p) : Keep P p := by
  intro s hs
  unfold Conds
  rw [h s]
  exact hs

theorem keep_bind {p : Py RuleSet α} {f : α → Py RuleSet β} (h : Keep P p) (h' : ∀ a, Keep P (f a)) : Keep P (p >>= f) := by
  intro s hs
  rw [Py.bind_run]
  have := h s hs
  rcases e : p s with ⟨_ | a, t⟩ <;> rw [e] at this
  · exact this
  · exact h' a t this

theorem eachRule_conds {f : Env → Py Rule Unit} (hf : ∀ E, Rule.Leaves Rule.cond (f E)) (l : List Member) :
    (RuleSet.eachRule R f l).2.map (·.rule.cond) = l.map (·.rule.cond) := by
  induction l with
  | nil => rfl
  | cons m l ih =>
    unfold RuleSet.eachRule RuleSet.onRule
    have := hf (R.ofKind m.kind) m.rule
    split
    · rename_i e
      obtain ⟨-, rfl⟩ := Prod.mk.inj e
      simp only [List.map_cons, this]
    · rename_i e
      obtain ⟨-, rfl⟩ := Prod.mk.inj e
      simp only [List.map_cons, this, ih]

theorem conds_of_map {l l' : List Member} (h : l'.map (·.rule.cond) = l.map (·.rule.cond)) (hl : ∀ m ∈ l, P m.rule.cond) :
    ∀ m ∈ l', P m.rule.cond := by
  intro m hm
  have : m.rule.cond ∈ l.map (·.rule.cond) := h ▸ List.mem_map_of_mem (f := fun m : Member => m.rule.cond) hm
  obtain ⟨m', hm', e⟩ := List.mem_map.1 this
  rw [← e]
  exact hl m' hm'

theorem keep_forRules {f : Env → Py Rule Unit} (hf : ∀ E, Rule.Leaves Rule.cond (f E)) : Keep P (RuleSet.forRules R f) :=
  fun s hs => conds_of_map (l := s.rules) (eachRule_conds hf _) hs

theorem keep_dropRules (drops : List (Member × Nat)) : Keep P (RuleSet.dropRules R drops) := by
  intro s hs m hm
  rcases SharedRules.dropRules_prefix (R := R) drops s with ⟨-, e⟩ | ⟨kept, k, hk, e⟩
  · rw [e] at hm
    exact hs m hm
  · rw [e] at hm
    have := List.mem_of_mem_take hm
    rw [RuleSet.keepRules_ok hk] at this
    obtain ⟨q, hq, rfl⟩ := List.mem_map.1 this
    have := (List.mem_filter.1 hq).1
    exact hs q.1 (List.fst_mem_of_mem_zipIdx this)

theorem keep_afterEval (drops : List (Member × Nat)) (given : Bool) : Keep P (RuleSet.afterEval R drops given) := by
  unfold RuleSet.afterEval
  split
  · exact keep_bind (keep_dropRules drops) fun _ => keep_leaves (.bind (.whenSet .recomputeSelf) fun _ => .whenSet .recomputeStacked)
  · exact keep_leaves (.bind (.whenSet .recomputeSelf) fun _ => .whenSet .recomputeStacked)

theorem keep_afterEvalStacked (drops : List (Member × Nat)) (given : Bool) : Keep P (RuleSet.afterEvalStacked R drops given) := by
  unfold RuleSet.afterEvalStacked
  split
  · exact keep_bind (keep_dropRules drops) fun _ => keep_leaves (.bind (.whenSet .recomputeSelf) fun _ => .whenSet .recomputeStacked)
  · exact keep_leaves (.pure _)

theorem receiveAll_conds {mark : Rule → Rule} (hm : ∀ r, Rule.own (mark r) = Rule.own r) (vals : List (String × RFun.Series Label)) (i : Nat)
    (l : List Member) : (RuleSet.receiveAll R mark vals i l).2.map (·.rule.cond) = l.map (·.rule.cond) := by
  induction l generalizing i with
  | nil => rfl
  | cons m l ih =>
    unfold RuleSet.receiveAll
    have := congrArg Prod.fst (RuleSet.leaves_receive (R.ofKind m.kind) hm i vals m.rule)
    have ih := ih (i + 1)
    rcases e : RuleSet.receive (R.ofKind m.kind) mark i vals m.rule with ⟨a | a, r⟩
    · rw [e] at this
      simpa [Rule.own] using this
    · rw [e] at this
      rcases e' : RuleSet.receiveAll R mark vals (i + 1) l with ⟨b | b, l'⟩
      · rw [e'] at ih
        simpa [Rule.own] using And.intro this ih
      · rw [e'] at ih
        simpa [Rule.own] using And.intro this ih

theorem keep_receiveRules {mark : Rule → Rule} (hm : ∀ r, Rule.own (mark r) = Rule.own r) (vals : List (String × RFun.Series Label)) :
    Keep P (RuleSet.receiveRules R mark vals) :=
  fun s hs => conds_of_map (l := s.rules) (receiveAll_conds hm vals 0 _) hs

theorem vote_class_state {S : SetEnv} (hk : S.env.kind = .classification) (w : Option Weights) (xs : Option Xs) (l : List Rule) :
    (Vote.predictUnstacked S w xs l).2 = l := by
  unfold Vote.predictUnstacked
  rw [Py.bind_ok (Py.get_run l), hk]
  cases w <;> rfl

theorem predict_class_rules {s : RuleSet} (hk : s.ruleType = some .classification) (xs : Option Xs) (w : Option WeightsArg) :
    (RuleSet.predict R xs w s).2.rules = s.rules := by
  have hu : (RuleSet.predictUnstacked R .classification xs w s).2.rules = s.rules := by
    unfold RuleSet.predictUnstacked
    rw [Py.bind_ok (Py.get_run s)]
    cases hw : RuleSet.weightsOf R .classification s.rules w with
    | error e => rfl
    | ok w =>
      rw [Py.bind_ok (Py.ofExcept_run _ _), SharedRules.leaves_bind_rules fun _ => .bind (.ofExcept _) fun _ => .pure _]
      show RuleSet.putBack s.rules (Vote.predictUnstacked (RuleSet.voteEnv R .classification) w xs (s.rules.map (·.rule))).2 = s.rules
      rw [vote_class_state rfl]
      exact RuleSetProps.putBack_same _
  unfold RuleSet.predict
  rw [Py.bind_ok (Py.get_run s), hk]
  split
  · rfl
  · simp only
    cases R.stackedFit with
    | false => exact hu
    | true =>
      cases s.stacked with
      | none => exact hu
      | some c =>
        exact SharedRules.Leaves.bind (.ofExcept _) (fun _ => .bind (.ofExcept _) fun _ => .ofExcept _) s

/-! ## fit, eval -/

theorem calcCriterion_same {s : RuleSet} (h : AllSee x x' s.rules) (y : List Label) (w : Option WeightsArg) (kw : Rule.Kw) :
    RuleSet.calcCriterion R y (some x') w kw s = RuleSet.calcCriterion R y (some x) w kw s := by
  unfold RuleSet.calcCriterion
  rw [Py.bind_ok (Py.get_run s), Py.bind_ok (Py.get_run s)]
  split
  · rfl
  · cases hk : s.ruleType with
    | none => rfl
    | some k =>
      simp only
      rw [Py.bind_run, Py.bind_run, predictSet_same h]
      cases k with
      | regression => rfl
      | classification =>
        have hp := predict_class_rules (R := R) hk (some x) w
        rcases e : RuleSet.predict R (some x) w s with ⟨a | a, t⟩
        · rfl
        · rw [e] at hp
          simp only at hp ⊢
          split
          · rfl
          · cases RuleSet.labelsOfCells a with
            | error e => rfl
            | ok p =>
              rw [Py.bind_ok (Py.ofExcept_run _ _), Py.bind_ok (Py.ofExcept_run _ _)]
              refine bind_same ?_
              unfold RuleSet.criterionActivation
              simp only
              rw [Py.bind_ok (Py.get_run t), Py.bind_ok (Py.get_run t), evaluateSelf_same]
              rw [hp]
              exact h

theorem fitSet_same {s : RuleSet} (h : AllSee x x' s.rules) (hl : x'.length = x.length) (y : List Label) (force : Bool) (kw : Rule.Kw) :
    RuleSet.fit R y (some x') force kw s = RuleSet.fit R y (some x) force kw s := by
  refine same_bind (P := fun c => Sees c x x') (same_refl _) (keep_leaves ?_) (fun k => ?_) s h
  · refine .bind .get fun s => ?_
    cases s.ruleType with
    | none => exact .throw _
    | some k => exact .pure _
  split
  · exact same_refl _
  · refine same_get fun s hs => ?_
    simp only [Option.any_some, hl, Option.isNone_some, Option.isSome_some]
    split
    · rfl
    · split
      · rfl
      · split
        · rfl
        · exact bind_same (forRules_same fun m hm E => fit_same (hs m hm) y force kw)

theorem evalSet_same {s : RuleSet} (h : AllSee x x' s.rules) (hl : x'.length = x.length) (y : List Label) (keep : Bool)
    (w : Option WeightsArg) (force : Bool) (kw : Rule.Kw) :
    RuleSet.eval R y (some x') keep w force kw s = RuleSet.eval R y (some x) keep w force kw s := by
  refine same_bind (P := fun c => Sees c x x') (same_refl _) (keep_leaves ?_) (fun k => ?_) s h
  · refine .bind .get fun s => ?_
    cases s.ruleType with
    | none => exact .throw _
    | some k => exact .pure _
  split
  · exact same_refl _
  · refine same_get fun s hs => ?_
    simp only [Option.any_some, hl, Option.isNone_some, Option.isSome_some]
    split
    · rfl
    · split
      · rfl
      · split
        · rfl
        · generalize (keep || !(s.rules.all fun m => m.rule.fitted)) = keep
          refine same_bind (P := fun c => Sees c x x') (fun s hs => forRules_same fun m hm E => eval_same (hs m hm) y keep force kw)
            (keep_forRules fun E => Rule.leaves_eval _ _ _ _ _ _) (fun _ => ?_) s hs
          refine same_bind (same_refl _) (keep_leaves .get) fun t => ?_
          refine same_bind (same_refl _) (keep_afterEval _ _) fun _ => ?_
          refine fun u hu => bind_same ?_
          cases keep with
          | true => rfl
          | false => exact calcCriterion_same hu y w kw

theorem calcActivationSet_same {s : RuleSet} (h : AllSee x x' s.rules) (hl : x'.length = x.length) :
    RuleSet.calcActivation R x' s = RuleSet.calcActivation R x s := by
  unfold RuleSet.calcActivation
  rw [Py.bind_ok (Py.get_run s), Py.bind_ok (Py.get_run s), hl]
  split
  · rfl
  · split
    · rfl
    · exact bind_same (forRules_same fun m hm E => calcActivation_same (h m hm))

theorem whileStacking_same {f g : Py RuleSet Unit} (h : ∀ s, AllSee x x' s.rules → f s = g s) {s : RuleSet} (hs : AllSee x x' s.rules) :
    RuleSet.whileStacking f s = RuleSet.whileStacking g s := by
  unfold RuleSet.whileStacking
  rw [Py.bind_ok (Py.get_run s), Py.bind_ok (Py.get_run s), Py.bind_ok (Py.modify_run _ s), Py.bind_ok (Py.modify_run _ s)]
  exact bind_same (h _ hs)

theorem keep_whileStacking {f : Py RuleSet Unit} (h : Keep P f) : Keep P (RuleSet.whileStacking f) :=
  keep_bind (keep_leaves .get) fun _ => keep_bind (keep_leaves (.modify fun _ => rfl)) fun _ => keep_bind h fun _ =>
    keep_leaves (.bind (.modify fun _ => rfl) fun _ => .pure _)

theorem keep_calcActivation (x : Xs) : Keep P (RuleSet.calcActivation R x) := by
  refine keep_bind (keep_leaves .get) fun s => ?_
  split
  · exact keep_leaves (.throw _)
  · split
    · exact keep_leaves (.pure _)
    · exact keep_bind (keep_forRules fun E => Rule.leaves_calcActivation _ _) fun _ =>
        keep_leaves (.bind .recomputeSelf fun _ => .whenSet .recomputeStacked)

theorem fitStacked_same {s : RuleSet} (h : AllSee x x' s.rules) (hl : x'.length = x.length) (y : List Label) (kw : Rule.Kw) :
    RuleSet.fitStacked R y (some x') kw s = RuleSet.fitStacked R y (some x) kw s := by
  refine same_bind (P := fun c => Sees c x x') (same_refl _) (keep_leaves ?_) (fun k => ?_) s h
  · refine .bind .get fun s => ?_
    cases s.ruleType with
    | none => exact .throw _
    | some k => exact .pure _
  split
  · exact same_refl _
  · refine same_get fun s hs => ?_
    simp only [Option.any_some, hl, Option.isNone_some]
    split
    · rfl
    · split
      · rfl
      · split
        · rfl
        · exact bind_same (whileStacking_same (x := x) (x' := x') (fun s hs => calcActivationSet_same hs hl) hs)

theorem prepareEval_same {s : RuleSet} (h : AllSee x x' s.rules) (hl : x'.length = x.length) (keep : Bool) :
    RuleSet.prepareEval R (some x') keep s = RuleSet.prepareEval R (some x) keep s := by
  unfold RuleSet.prepareEval
  simp only
  split
  · exact bind_same (whileStacking_same (x := x) (x' := x') (fun s hs => calcActivationSet_same hs hl) h)
  · rw [Py.bind_ok (Py.get_run s), Py.bind_ok (Py.get_run s), evaluateStacked_same h, evaluateSelf_same h]

theorem keep_prepareEval (x : Xs) (keep : Bool) : Keep P (RuleSet.prepareEval R (some x) keep) := by
  unfold RuleSet.prepareEval
  simp only
  split
  · exact keep_bind (keep_whileStacking (keep_calcActivation x)) fun _ => keep_leaves (.bind .get fun _ => .pure _)
  · exact keep_leaves (.bind .get fun _ => .bind (.ofExcept _) fun _ => .bind (.ofExcept _) fun _ => .pure _)

theorem evalStacked_same {s : RuleSet} (h : AllSee x x' s.rules) (hl : x'.length = x.length) (y : List Label) (keep : Bool)
    (w : Option WeightsArg) (kw : Rule.Kw) :
    RuleSet.evalStacked R y (some x') keep w kw s = RuleSet.evalStacked R y (some x) keep w kw s := by
  refine same_bind (P := fun c => Sees c x x') (same_refl _) (keep_leaves ?_) (fun k => ?_) s h
  · refine .bind .get fun s => ?_
    cases s.ruleType with
    | none => exact .throw _
    | some k => exact .pure _
  split
  · exact same_refl _
  · refine same_get fun s hs => ?_
    simp only [Option.any_some, hl, Option.isNone_some, Option.isSome_some]
    split
    · rfl
    · split
      · rfl
      · split
        · rfl
        · generalize (keep || !(s.rules.all fun m => m.rule.fitted)) = keep
          refine same_bind (P := fun c => Sees c x x') (fun s hs => prepareEval_same hs hl keep)
            (keep_prepareEval x' keep) (fun p => ?_) s hs
          refine same_bind (same_refl _) (keep_leaves .get) fun t => ?_
          refine same_bind (same_refl _) (keep_leaves (.ofExcept _)) fun c => ?_
          refine same_bind (same_refl _) (keep_leaves (.ofExcept _)) fun vals => ?_
          refine same_bind (same_refl _) (keep_leaves (.ite (.modify fun _ => rfl) (.pure _))) fun _ => ?_
          refine same_bind (same_refl _) (keep_receiveRules (mark := fun r => { r with evaluated := true }) (fun _ => rfl) _) fun ns => ?_
          refine same_bind (same_refl _) (keep_leaves .get) fun t => ?_
          refine same_bind (same_refl _) (keep_afterEvalStacked _ _) fun _ => ?_
          refine fun u hu => bind_same ?_
          cases keep with
          | true => rfl
          | false => exact calcCriterion_same hu y w kw

end

end Verif.OnlyUsed
