import Verif.AgainSetProps
import Verif.LoadPredictLemmas

/-!
# Lemmas: evaluating a ruleset again
-/

namespace Verif.AgainSetProps

open Verif Spec RuleSet RuleSetProps Again AgainProps LoadPredict

/-- What `eval` has no reason to compute again is what it would compute. -/
structure Settled (R : RsEnv) (s : RuleSet) : Prop where
  self : noActivation s = true → evaluateSelf R none s.rules = .ok s.act
  stacked : s.stack = true → s.act = none → evaluateStacked R none s.rules = .ok s.stacked

theorem afterEval_settled {R : RsEnv} {drops : List (Member × Nat)} {s s' : RuleSet} (h : afterEval R drops false s = (.ok (), s')) : Settled R s' := by
  have key : ∀ {s1 : RuleSet} {c : RuleSet → Bool}, (∀ s : RuleSet, s.stack = true → s.act = none → s.rules = s1.rules → s.stacked = s1.stacked → c s = true) →
      (whenSet (fun s => noActivation s || false) (recomputeSelf R) >>= fun _ => whenSet c (recomputeStacked R)) s1 = (.ok (), s') → Settled R s' := by
    intro s1 c hc h
    obtain ⟨_, s2, h2, h⟩ := Py.bind_eq_ok h
    obtain ⟨f1, f2, f3⟩ := selfIf_ok h2
    have hself : noActivation s2 = true → evaluateSelf R none s2.rules = .ok s2.act := by
      intro e
      cases e1 : noActivation s1 with
      | true => exact f2 (.inr e1)
      | false =>
        have := f3 rfl e1
        unfold noActivation at e e1
        rw [this, e1] at e
        cases e
    rcases whenSet_ok h with ⟨hs, rfl⟩ | ⟨hs, h⟩
    · refine ⟨hself, ?_⟩
      intro e1 e2
      have : c s' = true := hc s' e1 e2 (by rw [f1]) (by rw [f1])
      rw [this] at hs
      cases hs
    · obtain ⟨a, ha, rfl⟩ := recomputeStacked_ok h
      exact ⟨hself, fun _ _ => ha⟩
  unfold afterEval at h
  split at h
  · obtain ⟨_, s1, h1, h⟩ := Py.bind_eq_ok h
    refine key (c := fun s => s.stack && (s.stacked.isNone || false)) ?_ h
    intro s e1 _ _ e4
    have := (dropRules_ok h1).2.1
    rw [this] at e4
    simp [e1, e4]
  · refine key (c := fun s => s.stack && (s.act.isNone || false)) ?_ h
    intro s e1 e2 _ _
    simp [e1, e2]

theorem settled_still {R : RsEnv} {s : RuleSet} (hs : Settled R s) : afterEval R [] false s = (.ok (), s) := by
  unfold afterEval
  rw [if_neg (by simp)]
  rw [Py.bind_ok (a := ()) (s' := s)]
  · unfold whenSet
    rw [Py.bind_ok (Py.get_run s)]
    split
    · rename_i h
      simp only [Bool.or_false, Bool.and_eq_true, Option.isNone_iff_eq_none] at h
      unfold recomputeStacked computeStacked
      rw [Py.bind_ok (Py.modify_run _ _), Py.bind_ok (Py.get_run _)]
      simp only
      rw [hs.stacked h.1 h.2, Py.bind_ok (Py.ofExcept_run _ _)]
      rfl
    · rfl
  · unfold whenSet
    rw [Py.bind_ok (Py.get_run s)]
    split
    · rename_i h
      simp only [Bool.or_false] at h
      unfold recomputeSelf computeSelf
      rw [Py.bind_ok (Py.modify_run _ _), Py.bind_ok (Py.get_run _)]
      simp only
      rw [hs.self h, Py.bind_ok (Py.ofExcept_run _ _)]
      rfl
    · rfl

theorem afterEval_type {R : RsEnv} {drops : List (Member × Nat)} {given : Bool} {k : Kind} {s s' : RuleSet} (hk : s.ruleType = some k)
    (h : afterEval R drops given s = (.ok (), s')) : s'.ruleType = some k := by
  unfold afterEval at h
  split at h
  · obtain ⟨_, s1, h1, h⟩ := Py.bind_eq_ok h
    obtain ⟨_, s2, h2, h⟩ := Py.bind_eq_ok h
    rw [whenSet_type recomputeStacked_type h, whenSet_type recomputeSelf_type h2]
    exact (dropRules_type hk h1).1
  · obtain ⟨_, s1, h1, h⟩ := Py.bind_eq_ok h
    rw [whenSet_type recomputeStacked_type h, whenSet_type recomputeSelf_type h1]
    exact hk

/-- On this ruleset the call changes nothing but the criterion. -/
def OnlyCriterion {α : Type} (s : RuleSet) (m : Py RuleSet α) : Prop := ∃ c, (m s).2 = { s with criterion := c }

theorem onlyCriterion_same {α : Type} {s : RuleSet} {m : Py RuleSet α} (h : (m s).2 = s) : OnlyCriterion s m := ⟨s.criterion, h⟩

theorem onlyCriterion_bind {α β : Type} {s : RuleSet} {m : Py RuleSet α} {f : α → Py RuleSet β} {o : Except Err α} (h : m s = (o, s))
    (hf : ∀ a, OnlyCriterion s (f a)) : OnlyCriterion s (m >>= f) := by
  cases o with
  | error e => exact ⟨s.criterion, by rw [Py.bind_err h]⟩
  | ok a =>
    obtain ⟨c, hc⟩ := hf a
    exact ⟨c, by rw [Py.bind_ok h, hc]⟩

/-- The criterion computed on features changes nothing but the criterion. -/
theorem calcCriterion_only {R : RsEnv} {k : Kind} {w : Option Vote.WeightsArg} {kw : Rule.Kw} {y : List Label} {x : Xs} {s : RuleSet} (hu : Unstacked R s)
    (hk : s.ruleType = some k) (ha : ∀ m ∈ s.rules, m.kind = k) : OnlyCriterion s (RuleSet.calcCriterion R y (some x) w kw) := by
  have hp : List.Forall₂ (Peer R k w) s.rules s.rules := by
    rw [List.forall₂_same]
    exact fun m hm => ⟨ha m hm, ha m hm, ⟨rfl, rfl⟩, fun _ _ => rfl⟩
  obtain ⟨o, h1, -⟩ := predict_peers (x := x) hu hu hk hk hp
  have he : ∀ {α : Type} (a : Except Err α), (Py.ofExcept a : Py RuleSet α) s = (a, s) := fun a => Py.ofExcept_run _ _
  have run : ∀ c : RuleSet → Thresholds.Attr, OnlyCriterion s (Py.modify fun s => { s with criterion := c s }) := fun c => ⟨c s, by rw [Py.modify_run]⟩
  unfold RuleSet.calcCriterion
  refine onlyCriterion_bind (o := .ok s) (Py.get_run s) fun s0 => ?_
  split
  · exact onlyCriterion_same rfl
  split
  · exact onlyCriterion_same rfl
  rename_i k' _
  refine onlyCriterion_bind h1 fun p => ?_
  split
  · exact run _
  refine onlyCriterion_bind (he _) fun l => ?_
  cases k' with
  | classification =>
    refine onlyCriterion_bind (o := (evaluateSelf R (some x) s.rules).map fun a => a.getD []) ?_ fun a => onlyCriterion_bind (he _) fun c => run _
    unfold criterionActivation
    simp only [Py.bind_run, Py.get_run, Py.ofExcept_run]
    cases evaluateSelf R (some x) s.rules <;> rfl
  | regression => exact onlyCriterion_bind (he _) fun _ => onlyCriterion_bind (he _) fun _ => onlyCriterion_bind (he _) fun _ => run _

theorem needType_run {s : RuleSet} {k : Kind} (hk : s.ruleType = some k) : needType s = (.ok k, s) := by
  unfold needType
  rw [Py.bind_ok (Py.get_run s), hk]
  rfl

/-! ## New activations kept -/

/-- The call does not look at the criterion and does not change it. -/
def Shift {α : Type} (d : Thresholds.Attr) (m : Py RuleSet α) : Prop :=
  ∀ s, m { s with criterion := d } = ((m s).1, { (m s).2 with criterion := d })

theorem Shift.pure {α : Type} {d : Thresholds.Attr} (a : α) : Shift d (pure a : Py RuleSet α) := fun _ => rfl

theorem Shift.throw {α : Type} {d : Thresholds.Attr} (e : Err) : Shift d (Py.throw e : Py RuleSet α) := fun _ => rfl

theorem Shift.ofExcept {α : Type} {d : Thresholds.Attr} (a : Except Err α) : Shift d (Py.ofExcept a : Py RuleSet α) := fun s => by
  rw [Py.ofExcept_run, Py.ofExcept_run]

theorem Shift.bind {α β : Type} {d : Thresholds.Attr} {m : Py RuleSet α} {f : α → Py RuleSet β} (hm : Shift d m) (hf : ∀ a, Shift d (f a)) :
    Shift d (m >>= f) := by
  intro s
  rw [Py.bind_run, Py.bind_run, hm s]
  rcases m s with ⟨o, t⟩
  cases o with
  | error e => rfl
  | ok a => exact hf a t

theorem Shift.get {α : Type} {d : Thresholds.Attr} {f : RuleSet → Py RuleSet α} (h : ∀ s, f { s with criterion := d } = f s) (hf : ∀ s, Shift d (f s)) :
    Shift d (Py.get >>= f) := by
  intro s
  rw [Py.bind_ok (Py.get_run _), Py.bind_ok (Py.get_run _), h]
  exact hf s s

theorem shift_unstacked {R : RsEnv} {d : Thresholds.Attr} (k : Kind) (xs : Option Xs) (w : Option Vote.WeightsArg) : Shift d (predictUnstacked R k xs w) := by
  unfold predictUnstacked
  refine .get (fun _ => rfl) fun s => .bind (.ofExcept _) fun w' => .bind (fun _ => rfl) fun _ => .bind (.ofExcept _) fun _ => .pure _

theorem shift_predict {R : RsEnv} {d : Thresholds.Attr} (xs : Option Xs) (w : Option Vote.WeightsArg) : Shift d (predict R xs w) := by
  unfold predict
  refine .get (fun _ => ?_) fun s => ?_
  · rfl
  · split
    · exact .pure _
    · split
      · exact .pure _
      · split
        · exact .bind (.ofExcept _) fun _ => .bind (.ofExcept _) fun _ => .ofExcept _
        · exact shift_unstacked _ _ _

theorem shift_activation {R : RsEnv} {d : Thresholds.Attr} (xs : Option Xs) : Shift d (criterionActivation R xs) := by
  unfold criterionActivation
  split
  · exact .get (fun _ => rfl) fun s => .bind (.ofExcept _) fun _ => .pure _
  · refine .bind ?_ fun _ => .get (fun _ => rfl) fun s => ?_
    · unfold whenSet computeSelf
      refine .get (fun _ => rfl) fun s => ?_
      split
      · exact .get (fun _ => rfl) fun s => .bind (.ofExcept _) fun _ => fun _ => rfl
      · exact .pure _
    · split
      · exact .throw _
      · exact .pure _

/-- When it goes through, the call does not depend on the criterion which was there. -/
def Overwrites (d : Thresholds.Attr) (m : Py RuleSet Unit) : Prop := ∀ s s', m s = (.ok (), s') → m { s with criterion := d } = (.ok (), s')

theorem Overwrites.modify {d : Thresholds.Attr} (c : Thresholds.Attr) : Overwrites d (Py.modify fun s => { s with criterion := c }) := by
  intro s s' h
  rw [Py.modify_run] at h ⊢
  exact h

theorem Overwrites.bind {α : Type} {d : Thresholds.Attr} {m : Py RuleSet α} {f : α → Py RuleSet Unit} (hm : Shift d m) (hf : ∀ a, Overwrites d (f a)) :
    Overwrites d (m >>= f) := by
  intro s s' h
  rw [Py.bind_run] at h ⊢
  rw [hm s]
  rcases e : m s with ⟨o, t⟩
  rw [e] at h
  cases o with
  | error e => cases h
  | ok a => exact hf a t s' h

theorem calcCriterion_overwrites {R : RsEnv} {d : Thresholds.Attr} {y : List Label} {xs : Option Xs} {w : Option Vote.WeightsArg} {kw : Rule.Kw} {s s' : RuleSet}
    {k : Kind} (hne : s.rules ≠ []) (hk : s.ruleType = some k)
    (h : RuleSet.calcCriterion R y xs w kw s = (.ok (), s')) :
    RuleSet.calcCriterion R y xs w kw { s with criterion := d } = (.ok (), s') := by
  obtain ⟨body, hb, ho⟩ : ∃ body : Py RuleSet Unit, (∀ t : RuleSet, t.rules ≠ [] → t.ruleType = some k → RuleSet.calcCriterion R y xs w kw t = body t) ∧
      Overwrites d body := by
    refine ⟨predict R xs w >>= fun p =>
      if p.length = 0 then Py.modify fun s => { s with criterion := .num .nan }
      else Py.ofExcept (labelsOfCells p) >>= fun p =>
        match k with
        | .classification => criterionActivation R xs >>= fun a =>
          Py.ofExcept (RFun.classificationCriterionVector (kw.criterionMethod.getD "success_rate") a p y) >>= fun c =>
          Py.modify fun s => { s with criterion := match c with | some c => .num c | none => .none }
        | .regression => Py.ofExcept (Rule.numbers p) >>= fun p => Py.ofExcept (Rule.numbers y) >>= fun ys =>
          Py.ofExcept (RFun.regressionCriterion (kw.criterionMethod.getD "mse_norm") p ys) >>= fun c =>
          Py.modify fun s => { s with criterion := .num c }, fun t h1 h2 => ?_, ?_⟩
    · unfold RuleSet.calcCriterion
      rw [Py.bind_ok (Py.get_run _), if_neg (fun e => h1 (List.eq_nil_of_length_eq_zero e))]
      generalize t.ruleType = o at h2
      subst h2
      cases k <;> rfl
    · refine .bind (shift_predict _ _) fun p => ?_
      split
      · exact .modify _
      refine .bind (.ofExcept _) fun l => ?_
      split
      · exact .bind (shift_activation _) fun a => .bind (.ofExcept _) fun c => .modify _
      · exact .bind (.ofExcept _) fun _ => .bind (.ofExcept _) fun _ => .bind (.ofExcept _) fun _ => .modify _
  rw [hb s hne hk] at h
  exact (hb { s with criterion := d } hne hk).trans (ho s s' h)

/-- The call changes at most the rules, the activation and the criterion. -/
def OnlyThree {α : Type} (m : Py RuleSet α) : Prop := ∀ s, ∃ r a c, (m s).2 = { s with rules := r, act := a, criterion := c }

theorem OnlyThree.same {α : Type} {m : Py RuleSet α} (h : ∀ s, (m s).2 = s) : OnlyThree m := fun s => ⟨s.rules, s.act, s.criterion, h s⟩

theorem OnlyThree.bind {α β : Type} {m : Py RuleSet α} {f : α → Py RuleSet β} (hm : OnlyThree m) (hf : ∀ a, OnlyThree (f a)) : OnlyThree (m >>= f) := by
  intro s
  obtain ⟨r, a, c, h⟩ := hm s
  rw [Py.bind_run]
  rcases e : m s with ⟨o, t⟩
  rw [e] at h
  replace h : t = { s with rules := r, act := a, criterion := c } := h
  cases o with
  | error e => exact ⟨r, a, c, h⟩
  | ok b =>
    obtain ⟨r', a', c', h'⟩ := hf b t
    refine ⟨r', a', c', ?_⟩
    show (f b t).2 = _
    rw [h', h]

theorem three_ofExcept {α : Type} (a : Except Err α) : OnlyThree (Py.ofExcept a : Py RuleSet α) := .same fun s => by rw [Py.ofExcept_run]

theorem three_get : OnlyThree (Py.get : Py RuleSet RuleSet) := .same fun _ => rfl

theorem three_criterion (c : Thresholds.Attr) : OnlyThree (Py.modify fun s : RuleSet => { s with criterion := c }) := fun s => ⟨s.rules, s.act, c, rfl⟩

theorem three_predict {R : RsEnv} (xs : Option Xs) (w : Option Vote.WeightsArg) : OnlyThree (predict R xs w) := by
  unfold predict
  refine .bind three_get fun s => ?_
  split
  · exact .same fun _ => rfl
  · split
    · exact .same fun _ => rfl
    · split
      · exact .bind (three_ofExcept _) fun _ => .bind (three_ofExcept _) fun _ => three_ofExcept _
      · unfold predictUnstacked
        refine .bind three_get fun s => .bind (three_ofExcept _) fun w' => .bind (fun s => ⟨_, s.act, s.criterion, rfl⟩) fun _ =>
          .bind (three_ofExcept _) fun _ => .same fun _ => rfl

theorem three_activation {R : RsEnv} (xs : Option Xs) : OnlyThree (criterionActivation R xs) := by
  unfold criterionActivation
  split
  · exact .bind three_get fun s => .bind (three_ofExcept _) fun _ => .same fun _ => rfl
  · refine .bind ?_ fun _ => .bind three_get fun s => ?_
    · unfold whenSet computeSelf
      refine .bind three_get fun s => ?_
      split
      · exact .bind three_get fun s => .bind (three_ofExcept _) fun a => fun s => ⟨s.rules, a, s.criterion, rfl⟩
      · exact .same fun _ => rfl
    · split <;> exact .same fun _ => rfl

theorem calcCriterion_three {R : RsEnv} (y : List Label) (xs : Option Xs) (w : Option Vote.WeightsArg) (kw : Rule.Kw) :
    OnlyThree (RuleSet.calcCriterion R y xs w kw) := by
  unfold RuleSet.calcCriterion
  refine .bind three_get fun s => ?_
  split
  · exact .same fun _ => rfl
  split
  · exact .same fun _ => rfl
  refine .bind (three_predict _ _) fun p => ?_
  split
  · exact three_criterion _
  refine .bind (three_ofExcept _) fun l => ?_
  split
  · exact .bind (three_activation _) fun a => .bind (three_ofExcept _) fun c => three_criterion _
  · exact .bind (three_ofExcept _) fun _ => .bind (three_ofExcept _) fun _ => .bind (three_ofExcept _) fun _ => three_criterion _

/-- `eval` which replaces the activation of a rule does not depend on the activation which was there. -/
theorem eval_replaced {E : Env} {y : List Label} {x : Xs} {force : Bool} {kw : Rule.Kw} {r r' : Rule} (a : Option (List Nat)) (hx : x.length ≠ 0)
    (hg : r.good = true) (h : Rule.eval E y (some x) true force kw r = (.ok (), r')) :
    Rule.eval E y (some x) true force kw { r with act := a } = (.ok (), r') := by
  unfold Rule.eval at h ⊢
  split at h
  · cases h
  rename_i hm
  rw [if_neg hm]
  rw [Py.bind_ok (Py.get_run _)] at h ⊢
  rw [if_neg (by simp [hg]), if_neg (by simpa using hx)] at h
  rw [if_neg (by simp [hg]), if_neg (by simpa using hx)]
  unfold Rule.evalActivation Rule.recomputeIf Rule.calcActivation at h ⊢
  simp only [if_true] at h ⊢
  rw [if_neg hx] at h ⊢
  obtain ⟨v, r1, h1, h⟩ := Py.bind_eq_ok h
  obtain ⟨_, r2, h2, h1⟩ := Py.bind_eq_ok h1
  rw [Py.bind_ok (Py.get_run _)] at h2
  obtain ⟨v', r3, h3, h2⟩ := Py.bind_eq_ok h2
  rw [Py.ofExcept_run, Prod.mk.injEq] at h3
  obtain ⟨h3, rfl⟩ := h3
  rw [Py.bind_ok (Py.modify_run _ _)] at h2
  rw [Py.bind_ok (a := v) (s' := r1)]
  · exact h
  rw [Py.bind_ok (a := ()) (s' := r2)]
  · exact h1
  rw [Py.bind_ok (Py.get_run _), Py.bind_ok (a := v') (s' := { r with act := a }) (by
    rw [Py.ofExcept_run]
    exact Prod.ext h3 rfl), Py.bind_ok (Py.modify_run _ _)]
  exact h2

theorem sameMember_of_noLog {l l' : List Member} (h : l'.map noLogM = l.map noLogM) : List.Forall₂ SameMember l l' := by
  induction l generalizing l' with
  | nil =>
    cases l' with
    | nil => exact .nil
    | cons => cases h
  | cons m l ih =>
    cases l' with
    | nil => cases h
    | cons m' l' =>
      rw [List.map_cons, List.map_cons, List.cons.injEq] at h
      refine .cons ?_ (ih h.2)
      obtain ⟨k, ⟨⟩⟩ := m
      obtain ⟨k', ⟨⟩⟩ := m'
      have := h.1
      simp only [noLogM, noLog, Member.mk.injEq, Rule.mk.injEq] at this
      simp only [SameMember, Member.mk.injEq, Rule.mk.injEq]
      tauto

theorem noLog_of_sameMember {l l' : List Member} (h : List.Forall₂ SameMember l l') : l'.map noLogM = l.map noLogM := by
  induction h with
  | nil => rfl
  | cons hm _ ih =>
    rw [List.map_cons, List.map_cons, ih, hm]
    rfl

end Verif.AgainSetProps
