import Verif.StackedEvalSetLemmas
import Verif.StackedFitProps

/-!
# Lemmas about stacked eval: the criterion of the ruleset
-/

namespace Verif.RuleSet

open Verif Vote Spec

variable {R : RsEnv}

/-! ## The record of checks is read by nothing -/

/-- A rule without its record of checks -/
def noLog (r : Rule) : Rule := { r with log := [] }

/-- The same for the rule of a ruleset -/
def noLogM (m : Member) : Member := { m with rule := noLog m.rule }

theorem weightedRegressor_noLog (S : SetEnv) (rules : List Rule) (w : Weights) (xs : Option Xs) :
    weightedRegressor S (rules.map noLog) w xs = weightedRegressor S rules w xs := by
  unfold weightedRegressor
  rw [List.length_map, List.foldlM_map]
  rfl

theorem weightedClassifier_noLog (S : SetEnv) (rules : List Rule) (w : Weights) (xs : Option Xs) :
    weightedClassifier S (rules.map noLog) w xs = weightedClassifier S rules w xs := by
  unfold weightedClassifier
  rw [List.length_map, List.foldlM_map]
  rfl

theorem equalClassifier_noLog (S : SetEnv) (rules : List Rule) (xs : Option Xs) :
    equalClassifier S (rules.map noLog) xs = equalClassifier S rules xs := by
  unfold equalClassifier
  rw [weightedClassifier_noLog]
  simp only [List.any_map]
  rfl

/-- A computation on rules which does not depend on the records -/
def Blind {α} (m : Py (List Rule) α) : Prop := ∀ l, (m (l.map noLog)).1 = (m l).1 ∧ (m (l.map noLog)).2.map noLog = (m l).2.map noLog

theorem noLog_twice (l : List Rule) : (l.map noLog).map noLog = l.map noLog := by
  rw [List.map_map]
  rfl

theorem Blind.ofExcept {α} (x : Except Err α) : Blind (Py.ofExcept x : Py (List Rule) α) := by
  intro l
  rw [Py.ofExcept_run, Py.ofExcept_run]
  exact ⟨rfl, noLog_twice l⟩

theorem Blind.pure {α} (a : α) : Blind (pure a : Py (List Rule) α) := fun l => ⟨rfl, noLog_twice l⟩

theorem Blind.throw {α} (e : Err) : Blind (Py.throw e : Py (List Rule) α) := fun l => ⟨rfl, noLog_twice l⟩

theorem Blind.eq {α} {m : Py (List Rule) α} (h : Blind m) {l l' : List Rule} (e : l'.map noLog = l.map noLog) :
    (m l').1 = (m l).1 ∧ (m l').2.map noLog = (m l).2.map noLog := by
  obtain ⟨h1, h2⟩ := h l
  obtain ⟨h3, h4⟩ := h l'
  rw [e] at h3 h4
  exact ⟨h3.symm.trans h1, h4.symm.trans h2⟩

theorem Blind.bind {α β} {m : Py (List Rule) α} {f : α → Py (List Rule) β} (hm : Blind m) (hf : ∀ a, Blind (f a)) : Blind (m >>= f) := by
  intro l
  rw [Py.bind_run, Py.bind_run]
  obtain ⟨h1, h2⟩ := hm l
  rcases e : m l with ⟨a, l1⟩
  rcases e' : m (l.map noLog) with ⟨a', l1'⟩
  rw [e, e'] at h1 h2
  have h1 : a' = a := h1
  subst h1
  cases a' with
  | error e => exact ⟨rfl, h2⟩
  | ok a => exact (hf a).eq h2

theorem Blind.writeBack (k : Option Nat) (v : List Nat) : Blind (Py.modify (writeBack k v)) := by
  intro l
  rw [Py.modify_run, Py.modify_run]
  refine ⟨rfl, ?_⟩
  cases k with
  | none => exact noLog_twice l
  | some i =>
    show ((l.map noLog).modify i _).map noLog = (l.modify i _).map noLog
    induction l generalizing i with
    | nil => simp
    | cons r l ih =>
      cases i with
      | zero => simp only [List.map_cons, List.modify_zero_cons, noLog_twice]; rfl
      | succ i => simp only [List.map_cons, List.modify_succ_cons, ih]; rfl

theorem equalStep_blind (S : SetEnv) (xs : Option Xs) (i : Nat) (r : Rule) (acc : Option (Option Nat × List Num × List Nat)) :
    Blind (equalStep S xs i r acc) := by
  unfold equalStep
  refine .bind (.ofExcept _) fun a => ?_
  split
  · exact .pure _
  · split
    · exact .pure _
    · split
      · exact .bind (.ofExcept _) fun _ => .pure _
      · exact .bind (.ofExcept _) fun _ => .bind (.ofExcept _) fun _ => .bind (.ofExcept _) fun _ =>
          .bind (.ofExcept _) fun _ => .bind (.writeBack _ _) fun _ => .pure _

theorem equalStep_noLog {S : SetEnv} (hraw : RawSees S.storedRaw) (xs : Option Xs) (i : Nat) (r : Rule)
    (acc : Option (Option Nat × List Num × List Nat)) : equalStep S xs i (noLog r) acc = equalStep S xs i r acc := by
  have : aliased S xs i (noLog r) = aliased S xs i r := by
    unfold aliased
    rw [show S.storedRaw (noLog r) = S.storedRaw r from hraw r []]
  unfold equalStep
  rw [this]
  rfl

theorem equalLoop_noLog {S : SetEnv} (hraw : RawSees S.storedRaw) (xs : Option Xs) (l : List Rule) (i : Nat)
    (acc : Option (Option Nat × List Num × List Nat)) : equalLoop S xs i (l.map noLog) acc = equalLoop S xs i l acc := by
  induction l generalizing i acc with
  | nil => rfl
  | cons r l ih =>
    rw [List.map_cons]
    unfold equalLoop
    rw [equalStep_noLog hraw]
    congr 1
    funext a
    exact ih _ _

theorem equalLoop_blind (S : SetEnv) (xs : Option Xs) (l : List Rule) (i : Nat)
    (acc : Option (Option Nat × List Num × List Nat)) : Blind (equalLoop S xs i l acc) := by
  induction l generalizing i acc with
  | nil => exact .pure _
  | cons r l ih => exact .bind (equalStep_blind S xs i r acc) fun a => ih (i + 1) a

theorem equalRegressor_blind {S : SetEnv} (hraw : RawSees S.storedRaw) (xs : Option Xs) : Blind (equalRegressor S xs) := by
  intro l
  unfold equalRegressor
  rw [Py.bind_ok (Py.get_run _), Py.bind_ok (Py.get_run _), List.length_map]
  split
  · exact Blind.pure _ l
  · rw [equalLoop_noLog hraw]
    refine Blind.bind (equalLoop_blind S xs l 0 none) (fun a => ?_) l
    split
    · exact .throw _
    · exact .ofExcept _

theorem predictUnstacked_blind {S : SetEnv} (hraw : RawSees S.storedRaw) (w : Option Weights) (xs : Option Xs) :
    Blind (Vote.predictUnstacked S w xs) := by
  intro l
  unfold Vote.predictUnstacked
  rw [Py.bind_ok (Py.get_run _), Py.bind_ok (Py.get_run _)]
  cases S.env.kind with
  | regression =>
    cases w with
    | some w =>
      simp only
      rw [weightedRegressor_noLog]
      exact Blind.bind (.ofExcept _) (fun _ => .pure _) l
    | none => exact Blind.bind (equalRegressor_blind hraw xs) (fun _ => .pure _) l
  | classification =>
    cases w with
    | some w =>
      simp only
      rw [weightedClassifier_noLog]
      exact Blind.ofExcept _ l
    | none =>
      simp only
      rw [equalClassifier_noLog]
      exact Blind.ofExcept _ l

theorem weightsOf_noLog (k : Kind) (rules : List Member) (w : Option WeightsArg) :
    weightsOf R k (rules.map noLogM) w = weightsOf R k rules w := by
  unfold weightsOf
  cases w with
  | none => rfl
  | some w =>
    simp only
    congr 1
    unfold weightsFrom
    cases w with
    | series w => rfl
    | attr name =>
      simp only
      have : ∀ (rules : List Member), (((rules.map noLogM).map (·.rule)).mapM fun r => do
            let a ← r.getattr (voteEnv R k).env name
            let x ← weightAttr a
            pure ((voteEnv R k).condStr r.cond, x)) =
          ((rules.map (·.rule)).mapM fun r => do
            let a ← r.getattr (voteEnv R k).env name
            let x ← weightAttr a
            pure ((voteEnv R k).condStr r.cond, x)) := by
        intro rules
        induction rules with
        | nil => rfl
        | cons m rules ih =>
          rw [List.map_cons, List.map_cons, List.map_cons, List.mapM_cons, List.mapM_cons, ih]
          rfl
      rw [this]

theorem evaluateSelf_noLog (xs : Option Xs) (rules : List Member) : evaluateSelf R xs (rules.map noLogM) = evaluateSelf R xs rules := by
  have : activations R xs (rules.map noLogM) = activations R xs rules := by
    unfold activations
    cases xs with
    | none =>
      simp only
      congr 1
      induction rules with
      | nil => rfl
      | cons m rules ih => rw [List.map_cons, List.mapM_cons, List.mapM_cons, ih]; rfl
    | some x =>
      simp only
      congr 1
      induction rules with
      | nil => rfl
      | cons m rules ih => rw [List.map_cons, List.mapM_cons, List.mapM_cons, ih]; rfl
  unfold evaluateSelf
  rw [this, List.length_map]

/-! ## Rulesets -/

/-- Rulesets with the same rules, type and criterion; with the same activation if `b` -/
structure Near (b : Prop) (s s' : RuleSet) : Prop where
  rules : s'.rules.map noLogM = s.rules.map noLogM
  type : s'.ruleType = s.ruleType
  criterion : s'.criterion = s.criterion
  act : b → s'.act = s.act

/-- A computation which does the same on such rulesets -/
def NearRel {α} (b : Prop) (m : Py RuleSet α) : Prop := ∀ s s', Near b s s' → (m s').1 = (m s).1 ∧ Near b (m s).2 (m s').2

theorem NearRel.ofExcept {α} {b : Prop} (x : Except Err α) : NearRel b (Py.ofExcept x : Py RuleSet α) := by
  intro s s' h
  rw [Py.ofExcept_run, Py.ofExcept_run]
  exact ⟨rfl, h⟩

theorem NearRel.pure {α} {b : Prop} (a : α) : NearRel b (pure a : Py RuleSet α) := fun _ _ h => ⟨rfl, h⟩

theorem NearRel.throw {α} {b : Prop} (e : Err) : NearRel b (Py.throw e : Py RuleSet α) := fun _ _ h => ⟨rfl, h⟩

theorem NearRel.bind {α β} {b : Prop} {m : Py RuleSet α} {f : α → Py RuleSet β} (hm : NearRel b m) (hf : ∀ a, NearRel b (f a)) :
    NearRel b (m >>= f) := by
  intro s s' h
  rw [Py.bind_run, Py.bind_run]
  obtain ⟨h1, h2⟩ := hm s s' h
  rcases e : m s with ⟨a, t⟩
  rcases e' : m s' with ⟨a', t'⟩
  rw [e, e'] at h1 h2
  have h1 : a' = a := h1
  subst h1
  cases a' with
  | error e => exact ⟨rfl, h2⟩
  | ok a => exact hf a t t' h2

theorem NearRel.criterion {b : Prop} (c : Thresholds.Attr) : NearRel b (Py.modify fun s => { s with criterion := c }) := by
  intro s s' h
  rw [Py.modify_run, Py.modify_run]
  exact ⟨rfl, h.rules, h.type, rfl, h.act⟩

/-- Reading the ruleset: what is done with it is the same for both. -/
theorem NearRel.get {α} {b : Prop} {f : RuleSet → Py RuleSet α}
    (h : ∀ s s', Near b s s' → (f s' s').1 = (f s s).1 ∧ Near b (f s s).2 (f s' s').2) : NearRel b (Py.get >>= f) := by
  intro s s' hs
  rw [Py.bind_ok (Py.get_run _), Py.bind_ok (Py.get_run _)]
  exact h s s' hs

theorem Near.weights {b : Prop} {s s' : RuleSet} (h : Near b s s') (k : Kind) (w : Option WeightsArg) :
    weightsOf R k s'.rules w = weightsOf R k s.rules w := by
  rw [← weightsOf_noLog, h.rules, weightsOf_noLog]

theorem Near.self {b : Prop} {s s' : RuleSet} (h : Near b s s') (xs : Option Xs) : evaluateSelf R xs s'.rules = evaluateSelf R xs s.rules := by
  rw [← evaluateSelf_noLog, h.rules, evaluateSelf_noLog]

theorem rules_noLog (l : List Member) : (l.map noLogM).map (·.rule) = (l.map (·.rule)).map noLog := by
  rw [List.map_map, List.map_map]
  rfl

theorem putBack_noLog : ∀ {l l' : List Member} {rs rs' : List Rule}, l'.map noLogM = l.map noLogM → rs'.map noLog = rs.map noLog →
    (putBack l' rs').map noLogM = (putBack l rs).map noLogM
  | [], [], _, _, _, _ => by simp [putBack]
  | [], _ :: _, _, _, h, _ => by simp at h
  | _ :: _, [], _, _, h, _ => by simp at h
  | m :: l, m' :: l', [], [], _, _ => by simp [putBack]
  | m :: l, m' :: l', [], _ :: _, _, h => by simp at h
  | m :: l, m' :: l', _ :: _, [], _, h => by simp at h
  | m :: l, m' :: l', r :: rs, r' :: rs', h, h' => by
    rw [List.map_cons, List.map_cons, List.cons.injEq] at h h'
    have ih := putBack_noLog h.2 h'.2
    unfold putBack at ih ⊢
    rw [List.zipWith_cons_cons, List.zipWith_cons_cons, List.map_cons, List.map_cons, ih]
    congr 1
    have hk : m'.kind = m.kind := by have := congrArg Member.kind h.1; exact this
    unfold noLogM
    simp only [hk, h'.1]

theorem predictUnstacked_near {b : Prop} (hraw : RawSees R.storedRaw) (k : Kind) (xs : Option Xs) (w : Option WeightsArg) :
    NearRel b (predictUnstacked R k xs w) := by
  unfold predictUnstacked
  refine .get fun s s' h => ?_
  rw [h.weights]
  cases weightsOf R k s.rules w with
  | error e => exact NearRel.bind (NearRel.ofExcept (α := Unit) (.error e)) (fun _ => NearRel.throw (α := List Cell) e) s s' h
  | ok w' =>
    rw [Py.bind_ok (Py.ofExcept_run _ _), Py.bind_ok (Py.ofExcept_run _ _)]
    have hb := (predictUnstacked_blind (S := voteEnv R k) hraw w' xs).eq (l := s.rules.map (·.rule)) (l' := s'.rules.map (·.rule)) (by
      rw [← rules_noLog, h.rules, rules_noLog])
    rw [Py.bind_ok (Py.modify_run _ _), Py.bind_ok (Py.modify_run _ _), hb.1]
    refine NearRel.bind (.ofExcept _) (fun _ => .pure _) _ _ ?_
    exact ⟨putBack_noLog h.rules hb.2, h.type, h.criterion, h.act⟩

theorem Near.length {b : Prop} {s s' : RuleSet} (h : Near b s s') : s'.rules.length = s.rules.length := by
  have := congrArg List.length h.rules
  simpa using this

theorem predict_near {b : Prop} (hraw : RawSees R.storedRaw) (hoff : R.stackedFit = false) (xs : Option Xs) (w : Option WeightsArg) :
    NearRel b (predict R xs w) := by
  unfold predict
  refine .get fun s s' h => ?_
  rw [h.length, h.type, hoff]
  split
  · exact ⟨rfl, h⟩
  · cases s.ruleType with
    | none => exact ⟨rfl, h⟩
    | some k => exact predictUnstacked_near hraw k xs w s s' h

theorem criterionActivation_near {b : Prop} {xs : Option Xs} (hb : xs = none → b) : NearRel b (criterionActivation R xs) := by
  unfold criterionActivation
  cases xs with
  | some x =>
    refine .get fun s s' h => ?_
    rw [h.self]
    exact NearRel.bind (.ofExcept _) (fun _ => .pure _) s s' h
  | none =>
    have hb := hb rfl
    refine .bind ?_ fun _ => .get fun s s' h => ?_
    · unfold whenSet
      refine .get fun s s' h => ?_
      have hn : noActivation s' = noActivation s := by
        unfold noActivation
        rw [h.act hb]
      rw [hn]
      split
      · unfold computeSelf
        rw [Py.bind_ok (Py.get_run _), Py.bind_ok (Py.get_run _), h.self]
        refine NearRel.bind (.ofExcept _) (fun a => ?_) s s' h
        intro s s' h
        rw [Py.modify_run, Py.modify_run]
        exact ⟨rfl, h.rules, h.type, h.criterion, fun _ => rfl⟩
      · exact ⟨rfl, h⟩
    · have ha : s'.available = s.available := by
        unfold available
        rw [h.act hb]
      rw [ha]
      cases s.available with
      | none => exact ⟨rfl, h⟩
      | some v => exact ⟨rfl, h⟩

theorem calcCriterion_near {b : Prop} (hraw : RawSees R.storedRaw) (hoff : R.stackedFit = false) (y : List Label) {xs : Option Xs}
    (w : Option WeightsArg) (kw : Rule.Kw) (hb : xs = none → b) : NearRel b (calcCriterion R y xs w kw) := by
  unfold calcCriterion
  refine .get fun s s' h => ?_
  rw [h.length, h.type]
  split
  · exact ⟨rfl, h⟩
  · cases s.ruleType with
    | none => exact ⟨rfl, h⟩
    | some k =>
      refine NearRel.bind (predict_near hraw hoff xs w) (fun p => ?_) s s' h
      split
      · exact .criterion _
      · refine .bind (.ofExcept _) fun p => ?_
        cases k with
        | regression =>
          refine .bind (.ofExcept _) fun p => .bind (.ofExcept _) fun ys => .bind (.ofExcept _) fun c => .criterion _
        | classification =>
          refine .bind (criterionActivation_near hb) fun a => .bind (.ofExcept _) fun c => .criterion _

/-- Without stacked activations `STACKED_FIT` does not matter. -/
theorem predict_off {xs : Option Xs} {w : Option WeightsArg} {s : RuleSet} (h : s.stacked = none) :
    predict (withStackedFit R true) xs w s = predict (withStackedFit R false) xs w s := by
  unfold predict
  rw [Py.bind_ok (Py.get_run _), Py.bind_ok (Py.get_run _), h]
  rfl

theorem calcCriterion_off {y : List Label} {xs : Option Xs} {w : Option WeightsArg} {kw : Rule.Kw} {s : RuleSet} (h : s.stacked = none) :
    calcCriterion (withStackedFit R true) y xs w kw s = calcCriterion (withStackedFit R false) y xs w kw s := by
  unfold calcCriterion
  rw [Py.bind_ok (Py.get_run _), Py.bind_ok (Py.get_run _)]
  split
  · rfl
  · cases s.ruleType with
    | none => rfl
    | some k =>
      simp only
      rw [Py.bind_run, Py.bind_run, predict_off h]
      rfl

/-! ## The rulesets before the criterion is computed -/

theorem appendAll_type {k : Kind} {rules : List Member} {s s' : RuleSet} (hk : s.ruleType = some k)
    (h : appendAll R rules s = (.ok (), s')) : s'.ruleType = some k ∧ s'.criterion = s.criterion := by
  induction rules generalizing s with
  | nil =>
    simp only [appendAll, Py.pure_run] at h
    cases h
    exact ⟨hk, rfl⟩
  | cons m rest ih =>
    simp only [appendAll] at h
    obtain ⟨_, s1, h1, h⟩ := Py.bind_eq_ok h
    obtain ⟨idx, na, -, -, ht, rfl⟩ := append_noupdate h1
    have hk' : some m.kind = some k := by
      rcases ht with e | e
      · rw [hk] at e
        cases e
      · rw [← hk, e]
    have := ih (by exact hk') h
    exact this

theorem dropRules_type {k : Kind} {drops : List (Member × Nat)} {s s' : RuleSet} (hk : s.ruleType = some k)
    (h : dropRules R drops s = (.ok (), s')) : s'.ruleType = some k ∧ s'.criterion = s.criterion := by
  unfold dropRules at h
  rw [Py.bind_ok (Py.get_run s)] at h
  obtain ⟨kept, s1, h1, h⟩ := Py.bind_eq_ok h
  simp only [Py.ofExcept_run] at h1
  obtain ⟨e1, e2⟩ := Prod.mk.inj h1
  subst e2
  rw [Py.bind_ok (Py.modify_run _ _)] at h
  obtain ⟨_, s2, h2, h⟩ := Py.bind_eq_ok h
  rw [Py.bind_ok (Py.modify_run _ _)] at h
  have hc : s2.ruleType = s.ruleType ∧ s2.criterion = s.criterion := by
    unfold clearActivation at h2
    rw [Py.bind_ok (Py.get_run _)] at h2
    cases ha : s.act with
    | none =>
      simp only [ha, Py.pure_run] at h2
      cases h2
      exact ⟨rfl, rfl⟩
    | some v =>
      simp only [ha] at h2
      obtain ⟨_, s3, h3, h2⟩ := Py.bind_eq_ok h2
      simp only [Py.ofExcept_run] at h3
      obtain ⟨e3, e4⟩ := Prod.mk.inj h3
      subst e4
      simp only [Py.modify_run] at h2
      cases h2
      exact ⟨rfl, rfl⟩
  obtain ⟨i1, i2⟩ := appendAll_type (k := k) (by exact hc.1.trans hk) h
  exact ⟨i1, i2.trans hc.2⟩

/-- The ruleset after rules have been evaluated and bad ones dropped, when stacked activations are not kept -/
structure Settled (R : RsEnv) (drop given : Bool) (s s' : RuleSet) : Prop where
  type : s'.ruleType = s.ruleType
  criterion : s'.criterion = s.criterion
  stacked : s.stacked = none → s'.stacked = none
  kept : given = false → noActivation s = false → s'.act = if drop then s.act.map (fun v => v.map fun _ => 0) else s.act

theorem settled_drop {k : Kind} {drops : List (Member × Nat)} {given : Bool} {s s' : RuleSet} (hk : s.ruleType = some k) (hs : s.stack = false)
    (h : (do
      dropRules R drops
      whenSet (fun s => noActivation s || given) (recomputeSelf R)
      whenSet (fun s => s.stack && (s.stacked.isNone || given)) (recomputeStacked R)) s = (.ok (), s')) :
    Settled R true given s s' ∧ (given = true → evaluateSelf R none s'.rules = .ok s'.act) := by
  obtain ⟨_, s1, h1, h⟩ := Py.bind_eq_ok h
  obtain ⟨d1, d2, d3, d4, d5, d6⟩ := dropRules_ok h1
  obtain ⟨t1, t2⟩ := dropRules_type hk h1
  obtain ⟨_, s2, h2, h⟩ := Py.bind_eq_ok h
  obtain ⟨f1, f2, f3⟩ := selfIf_ok h2
  rw [noActivation_zeros _ _ d4] at f2 f3
  have hst : s2.stack = false := by rw [f1]; exact d3.trans hs
  rcases whenSet_ok h with ⟨-, rfl⟩ | ⟨hs, -⟩
  · refine ⟨⟨?_, ?_, ?_, ?_⟩, fun e => f2 (.inl e)⟩
    · rw [f1, hk]; exact t1
    · rw [f1]; exact t2
    · intro _
      rw [f1]; exact d2
    · intro e1 e2
      rw [f3 e1 e2, d4]
      rfl
  · rw [hst] at hs
    cases hs

theorem settled_plain {k : Kind} {given : Bool} {s s' : RuleSet} (hk : s.ruleType = some k) (hs : s.stack = false)
    (h : afterEval R (badRules s.rules) given s = (.ok (), s')) :
    Settled R (decide (badRules s.rules ≠ [])) given s s' ∧ (given = true → evaluateSelf R none s'.rules = .ok s'.act) := by
  unfold afterEval at h
  split at h
  · rename_i hpos
    rw [decide_eq_true (List.ne_nil_of_length_pos hpos)]
    exact settled_drop hk hs h
  · rename_i hpos
    have hnil : badRules s.rules = [] := List.length_eq_zero_iff.1 (by omega)
    rw [decide_eq_false (by simpa using hnil)]
    obtain ⟨_, s2, h2, h⟩ := Py.bind_eq_ok h
    obtain ⟨f1, f2, f3⟩ := selfIf_ok h2
    have hst : s2.stack = false := by rw [f1]; exact hs
    rcases whenSet_ok h with ⟨-, rfl⟩ | ⟨hs, -⟩
    · refine ⟨⟨?_, ?_, ?_, ?_⟩, fun e => f2 (.inl e)⟩
      · rw [f1]
      · rw [f1]
      · intro e
        rw [f1]; exact e
      · intro e1 e2
        rw [f3 e1 e2]
        rfl
    · rw [hst] at hs
      cases hs

theorem settled_stacked {k : Kind} {drops : List (Member × Nat)} {given : Bool} {s s' : RuleSet} (hk : s.ruleType = some k) (hs : s.stack = false)
    (h : afterEvalStacked R drops given s = (.ok (), s')) :
    Settled R (decide (drops ≠ [])) given s s' ∧ (given = true → evaluateSelf R none s.rules = .ok s.act → evaluateSelf R none s'.rules = .ok s'.act) := by
  unfold afterEvalStacked at h
  split at h
  · rename_i hpos
    rw [decide_eq_true (List.ne_nil_of_length_pos hpos)]
    obtain ⟨h1, h2⟩ := settled_drop hk hs h
    exact ⟨h1, fun e _ => h2 e⟩
  · rename_i hpos
    have hnil : drops = [] := List.length_eq_zero_iff.1 (by omega)
    rw [decide_eq_false (by simpa using hnil)]
    simp only [Py.pure_run] at h
    cases h
    exact ⟨⟨rfl, rfl, id, fun _ _ => rfl⟩, fun _ e => e⟩

/-- After stacked and plain eval of a ruleset which does not keep stacked activations, up to what is computed with the criterion -/
theorem both_near {k : Kind} {y : List Label} {xs : Option Xs} {keep keep' : Bool} {w : Option WeightsArg} {kw : Rule.Kw} {s s1 s2 : RuleSet}
    {d1 d2 : List Member} (hc : CanEval R k y xs s) (hd : DifferentRules R.hasher s.rules) (hne : s.rules ≠ [])
    (hkeep : keep' = (keep || !(s.rules.all fun m => m.rule.fitted)))
    (h1 : eval (withStackedFit R false) y xs keep w false kw s = (.ok d1, s1))
    (h2 : evalStacked (withStackedFit R true) y xs keep w kw s = (.ok d2, s2)) (hg : ∀ m ∈ s2.rules, m.rule.good = true)
    (hstack : s.stack = false) (hst : s.stacked = none) :
    ∃ sa sb sa' sb', Near (xs ≠ none ∧ keep' = true ∨ ActivationKnown s) sa sb ∧ sa.stacked = none ∧ sb.stacked = none ∧
      calcCriterion (withStackedFit R false) y (if keep' then none else xs) w kw sa = (.ok (), sa') ∧
      calcCriterion (withStackedFit R true) y (if keep' then none else xs) w kw sb = (.ok (), sb') ∧
      s1 = { sa' with testSize := .num (.fin y.length) } ∧ s2 = { sb' with testSize := .num (.fin y.length) } := by
  rcases eval_ok h1 with ⟨-, -, h | h⟩ | ⟨l1, sa, sa', keep1, hk1, e1, ha, hcr1, rfl, -⟩
  · rw [Option.any_eq_true] at h
    obtain ⟨x, hx1, hx2⟩ := h
    exact absurd (by simpa using hx2) (hc.points x hx1)
  · exact absurd h hne
  rw [← hkeep] at hk1
  subst hk1
  obtain ⟨l2, ns, kept, hb, hkept, hsb, -, p, t, sb, sb', hp, hact, haf, hsbr, hcr2, rfl⟩ :=
    both_evals (R := withStackedFit R true) (k := k) ⟨hc.type, hc.kinds, hc.points, hc.comparable, hc.texts, hc.stacked, hc.extra⟩ hd hne hkeep e1 h2
  have l1' := hb.len1
  have l2' := hb.len2
  have l3' := hb.len3
  have hd1 : DifferentRules R.hasher l1 := RuleSetProps.different_map (RuleSetProps.eachDone_cond (fun E => Rule.leaves_eval E y xs keep1 false kw) e1) hd
  have hsa : sa.rules = l1.filter fun m => m.rule.good := by
    refine Eq.trans ?_ (RuleSetProps.stays_different hd1)
    rcases (afterEval_ok (s := { s with rules := l1 }) ha).2 with ⟨hb, hr⟩ | hk
    · rw [hr]
      exact RuleSetProps.stays_none hb
    · exact keepRules_bad hk
  have hgk : ∀ m ∈ kept, m.rule.good = true := by
    intro m hm
    obtain ⟨j, hj⟩ := List.mem_iff_getElem?.1 hm
    obtain ⟨m', hj', -, hs⟩ := forall2_get hsb hj
    have := hg m' (List.mem_of_getElem? hj')
    rw [hs] at this
    exact this
  have hiff : ∀ q ∈ l2.zipIdx, decide (ns[q.2]? = some 0) = q.1.rule.good := by
    rintro ⟨m, j⟩ hq
    have hj := List.mk_mem_zipIdx_iff_getElem?.1 hq
    have hj' := (List.getElem?_eq_some_iff.1 hj).1
    have hn : ns[j]? = some (ns[j]'(by omega)) := by simp
    by_cases h0 : ns[j]? = some 0
    · rw [decide_eq_true h0]
      refine (hgk m ?_).symm
      rw [hkept]
      exact List.mem_map.2 ⟨(m, j), List.mem_filter.2 ⟨hq, by simpa using h0⟩, rfl⟩
    · rw [decide_eq_false h0]
      have := (hb.same j (s.rules[j]'(by omega)) (l1[j]'(by omega)) m _ (by simp) (by simp) hj hn).2.2.2.2.2 (by
        have : ns[j]'(by omega) ≠ 0 := fun e => h0 (by rw [hn, e])
        omega)
      exact this.symm
  have hz : l2 = l2.zipIdx.map (·.1) := (List.zipIdx_map_fst 0 l2).symm
  have hkept2 : kept = l2.filter fun m => m.rule.good := by
    rw [hkept]
    conv_rhs => rw [hz]
    rw [List.filter_map]
    congr 1
    exact List.filter_congr hiff
  have hone : ∀ n ∈ ns, n ≤ 1 := by
    intro n hn
    obtain ⟨j, hj⟩ := List.mem_iff_getElem?.1 hn
    have hj' := (List.getElem?_eq_some_iff.1 hj).1
    exact (hb.same j (s.rules[j]'(by omega)) (l1[j]'(by omega)) (l2[j]'(by omega)) n (by simp) (by simp) (by simp) hj).2.2.2.2.1
  have hdl : (dropList l2 ns).map (·.1) = l2.filter fun m => !m.rule.good := by
    rw [dropList_once (l3'.trans l2'.symm) hone]
    conv_rhs => rw [hz]
    rw [List.filter_map]
    congr 1
    refine List.filter_congr fun q hq => ?_
    rw [hiff q hq]
    rfl
  have hall : List.Forall₂ (fun m1 m2 : Member => m2.kind = m1.kind ∧ ∃ r, SameEval r m1.rule m2.rule) l1 l2 := by
    rw [List.forall₂_iff_get]
    refine ⟨l1'.trans l2'.symm, fun i hi1 hi2 => ?_⟩
    obtain ⟨g1, g2, -, g3, -⟩ := hb.same i (s.rules[i]'(by omega)) l1[i] l2[i] (ns[i]'(by omega)) (by simp) (by simp) (by simp) (by simp)
    exact ⟨g2.trans g1.symm, _, g3⟩
  have hrules : sb.rules.map noLogM = sa.rules.map noLogM := by
    rw [hsa, hsbr, hkept2]
    have hm := RuleSetProps.forall2_filter (p := fun m : Member => m.rule.good) (q := fun m : Member => m.rule.good)
      (fun a b h => h.2.choose_spec.good.symm) hall
    apply List.ext_get
    · simpa using hm.length_eq.symm
    · intro i hi1 hi2
      rw [List.forall₂_iff_get] at hm
      rw [List.length_map] at hi1 hi2
      obtain ⟨g1, r, g2⟩ := hm.2 i hi2 hi1
      have hgood := (List.mem_filter.1 (List.get_mem _ ⟨i, hi2⟩)).2
      obtain ⟨k1, k2⟩ := g2.same hgood
      simp only [List.get_eq_getElem, List.getElem_map] at g1 k2 ⊢
      unfold noLogM
      rw [g1, k2]
      rfl
  have hdrop : decide (dropList l2 ns ≠ []) = decide (badRules l1 ≠ []) := by
    rw [decide_eq_decide, not_iff_not]
    rw [← List.map_eq_nil_iff (f := fun q : Member × Nat => q.1), hdl, ← List.map_eq_nil_iff (l := badRules l1) (f := fun q : Member × Nat => q.1),
      badRules_fst]
    have hm := RuleSetProps.forall2_filter (p := fun m : Member => !m.rule.good) (q := fun m : Member => !m.rule.good)
      (fun a b h => by rw [h.2.choose_spec.good]) hall
    have := hm.length_eq
    rw [← List.length_eq_zero_iff, ← List.length_eq_zero_iff]
    omega
  have hfr : t.ruleType = some k ∧ t.criterion = s.criterion ∧ t.stack = false ∧ (if p.2 then none else t.stacked) = none := by
    rcases prepareEval_ok hc.points hp with ⟨x, la, a, c', rfl, rfl, hla, -, he, rfl, rfl⟩ | ⟨x, c', rfl, rfl, he, rfl, rfl⟩ | ⟨rfl, -, c', a, he, -, rfl, rfl⟩ | ⟨rfl, hs, rfl, rfl⟩
    · exact ⟨hc.type, rfl, hstack, by rw [hstack]; rfl⟩
    · exact ⟨hc.type, rfl, hstack, hst⟩
    · exact ⟨hc.type, rfl, hstack, by rw [hstack]; rfl⟩
    · exact absurd hst hs
  obtain ⟨f1, f2, f3, f4⟩ := hfr
  obtain ⟨p1, p2⟩ := settled_plain (R := withStackedFit R false) (s := { s with rules := l1 }) hc.type hstack ha
  obtain ⟨q1, q2⟩ := settled_stacked (R := withStackedFit R true) (k := k) (by exact f1) (by exact f3) haf
  refine ⟨sa, sb, sa', sb', ⟨hrules, ?_, ?_, ?_⟩, p1.stacked hst, q1.stacked f4, hcr1, hcr2, rfl, rfl⟩
  · rw [q1.type, p1.type]
    exact f1.trans hc.type.symm
  · rw [q1.criterion, p1.criterion]
    exact f2
  · intro hbb
    have known : ActivationKnown s → noActivation s = false := by
      rintro ⟨n, hn, -, e⟩
      unfold noActivation
      rw [e]
      simpa [vec] using hn
    have p3 := p1.kept
    have q3 := q1.kept
    rw [hdrop] at q3
    rcases prepareEval_ok hc.points hp with ⟨x, la, a, c', rfl, rfl, hla, hs, he, rfl, rfl⟩ | ⟨x, c', rfl, rfl, he, rfl, rfl⟩ | ⟨rfl, -, c', a, he, hs, rfl, rfl⟩ | ⟨rfl, hs, rfl, rfl⟩
    · have i1 := p2 rfl
      have i2 := q2 rfl (by
        show evaluateSelf (withStackedFit R true) none l2 = .ok a
        rw [evaluateSelf_acts hact]
        exact hs)
      have i3 : evaluateSelf (withStackedFit R true) none sb.rules = evaluateSelf (withStackedFit R false) none sa.rules := by
        show evaluateSelf (withStackedFit R true) none sb.rules = evaluateSelf (withStackedFit R true) none sa.rules
        rw [← evaluateSelf_noLog, hrules, evaluateSelf_noLog]
      rw [i1, i2] at i3
      exact Except.ok.inj i3
    · have hk : ActivationKnown t := by
        rcases hbb with ⟨-, e⟩ | e
        · cases e
        · exact e
      have i1 := p3 rfl (known hk)
      have i2 := q3 rfl (known hk)
      exact i2.trans i1.symm
    · have hk : ActivationKnown s := by
        rcases hbb with ⟨e, -⟩ | e
        · exact absurd rfl e
        · exact e
      have hk' := hk
      obtain ⟨n, hn, hpts, hact'⟩ := hk'
      have ea : a = s.act := by
        rw [hact']
        exact evaluateSelf_stored hpts hne hs
      have i1 := p3 rfl (known hk)
      have i2 := q3 rfl (by
        have := known hk
        unfold noActivation at this ⊢
        rw [← ea] at this
        exact this)
      rw [i1, i2]
      show (if _ then a.map _ else a) = _
      rw [ea]
    · exact absurd hst hs

/-! ## Stacked activations after a stacked eval -/

/-- With `STACKED_FIT` and stacked activations, the criterion changes no rule. -/
theorem calcCriterion_stacked {y : List Label} {xs : Option Xs} {w : Option WeightsArg} {kw : Rule.Kw} {s s' : RuleSet} (hon : R.stackedFit = true)
    (hs : s.stacked ≠ none) (h : calcCriterion R y xs w kw s = (.ok (), s')) : s'.rules = s.rules ∧ s'.stacked = s.stacked ∧ s'.stack = s.stack := by
  unfold calcCriterion at h
  rw [Py.bind_ok (Py.get_run _)] at h
  split at h
  · cases h
    exact ⟨rfl, rfl, rfl⟩
  · cases hk : s.ruleType with
    | none =>
      rw [hk] at h
      cases h
      exact ⟨rfl, rfl, rfl⟩
    | some k =>
      rw [hk] at h
      simp only at h
      obtain ⟨p, s1, h1, h'⟩ := Py.bind_eq_ok h
      clear h
      rename' h' => h
      have e1 : s1 = s := by
        unfold predict at h1
        rw [Py.bind_ok (Py.get_run _)] at h1
        split at h1
        · cases h1
          rfl
        · rw [hk, hon] at h1
          cases hc : s.stacked with
          | none => exact absurd hc hs
          | some c =>
            rw [hc] at h1
            simp only at h1
            obtain ⟨c', s2, h2, h1⟩ := Py.bind_eq_ok h1
            obtain ⟨-, rfl⟩ := Rule.ofExcept_ok h2
            obtain ⟨w', s3, h3, h1⟩ := Py.bind_eq_ok h1
            obtain ⟨-, rfl⟩ := Rule.ofExcept_ok h3
            obtain ⟨-, rfl⟩ := Rule.ofExcept_ok h1
            rfl
      subst e1
      by_cases hp : p.length = 0
      · rw [if_pos hp, Py.modify_run] at h
        cases h
        exact ⟨rfl, rfl, rfl⟩
      · rw [if_neg hp] at h
        obtain ⟨l, s2, h2, h⟩ := Py.bind_eq_ok h
        obtain ⟨-, rfl⟩ := Rule.ofExcept_ok h2
        cases k with
        | regression =>
          simp only at h
          obtain ⟨p, s3, h3, h⟩ := Py.bind_eq_ok h
          obtain ⟨-, rfl⟩ := Rule.ofExcept_ok h3
          obtain ⟨ys, s4, h4, h⟩ := Py.bind_eq_ok h
          obtain ⟨-, rfl⟩ := Rule.ofExcept_ok h4
          obtain ⟨c, s5, h5, h⟩ := Py.bind_eq_ok h
          obtain ⟨-, rfl⟩ := Rule.ofExcept_ok h5
          rw [Py.modify_run] at h
          cases h
          exact ⟨rfl, rfl, rfl⟩
        | classification =>
          simp only at h
          obtain ⟨a, s3, h3, h⟩ := Py.bind_eq_ok h
          obtain ⟨c, s4, h4, h⟩ := Py.bind_eq_ok h
          obtain ⟨-, rfl⟩ := Rule.ofExcept_ok h4
          rw [Py.modify_run] at h
          cases h
          show s3.rules = s1.rules ∧ s3.stacked = s1.stacked ∧ s3.stack = s1.stack
          unfold criterionActivation at h3
          cases xs with
          | some x =>
            simp only at h3
            rw [Py.bind_ok (Py.get_run _)] at h3
            obtain ⟨b, s5, h5, h3⟩ := Py.bind_eq_ok h3
            obtain ⟨-, rfl⟩ := Rule.ofExcept_ok h5
            cases h3
            exact ⟨rfl, rfl, rfl⟩
          | none =>
            simp only at h3
            obtain ⟨_, s5, h5, h3⟩ := Py.bind_eq_ok h3
            have e5 : s5.rules = s1.rules ∧ s5.stacked = s1.stacked ∧ s5.stack = s1.stack := by
              rcases whenSet_ok h5 with ⟨-, rfl⟩ | ⟨-, h5⟩
              · exact ⟨rfl, rfl, rfl⟩
              · unfold computeSelf at h5
                rw [Py.bind_ok (Py.get_run _)] at h5
                obtain ⟨b, s6, h6, h5⟩ := Py.bind_eq_ok h5
                obtain ⟨-, rfl⟩ := Rule.ofExcept_ok h6
                rw [Py.modify_run] at h5
                cases h5
                exact ⟨rfl, rfl, rfl⟩
            rw [Py.bind_ok (Py.get_run _)] at h3
            cases hv : s5.available with
            | none => simp [hv] at h3
            | some v =>
              rw [hv] at h3
              cases h3
              exact e5

theorem columnsOf_own {l l' : List Member} (h : l'.map (fun m => m.rule.own) = l.map fun m => m.rule.own) : columnsOf R l' = columnsOf R l := by
  have := congrArg (List.map fun p : Cond × Option (List Nat) => (R.condStr p.1, p.2.getD [])) h
  rwa [List.map_map, List.map_map] at this

end Verif.RuleSet
