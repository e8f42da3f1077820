import Verif.RowOrderSetLemmas
import Verif.StackedLemmas
import Verif.RangeLemmas
import Verif.SetEvalLemmas

/-!
# Lemmas: what `fit` of a ruleset raises on the same points in two orders
-/

namespace Verif.RowOrder

open Verif Spec RuleSet

/-- Two runs which raise the same, or which both go through to related rulesets -/
def SameEnd {α : Type} (Q : RuleSet → RuleSet → Prop) (p p' : Except Err α × RuleSet) : Prop :=
  (∃ e t t', p = (.error e, t) ∧ p' = (.error e, t')) ∨ ∃ a a' t t', p = (.ok a, t) ∧ p' = (.ok a', t') ∧ Q t t'

variable {R : RsEnv} {α β : Type}

theorem same_bind {Q Q' : RuleSet → RuleSet → Prop} {m m' : Py RuleSet α} {f f' : α → Py RuleSet β} {s s' : RuleSet}
    (h : SameEnd Q (m s) (m' s')) (hf : ∀ a a' t t', Q t t' → SameEnd Q' (f a t) (f' a' t')) :
    SameEnd Q' ((m >>= f) s) ((m' >>= f') s') := by
  rw [Py.bind_run, Py.bind_run]
  rcases h with ⟨e, t, t', h, h'⟩ | ⟨a, a', t, t', h, h', hq⟩
  · rw [h, h']
    exact .inl ⟨e, t, t', rfl, rfl⟩
  · rw [h, h']
    exact hf a a' t t' hq

theorem same_ok {Q : RuleSet → RuleSet → Prop} {p p' : Except Err α × RuleSet} {a a' : α} {t t' : RuleSet} (h : p = (.ok a, t))
    (h' : p' = (.ok a', t')) (hq : Q t t') : SameEnd Q p p' := .inr ⟨a, a', t, t', h, h', hq⟩

/-! ## What never raises -/

theorem evaluateSelf_total (hs : ∀ v, R.env.store v = .ok ()) (hm : ∀ l, R.multi l = .ok ()) {n : Nat} {rules : List Member}
    (h : ∀ m ∈ rules, HasPoints n m) : ∃ a, evaluateSelf R none rules = .ok a := by
  unfold evaluateSelf
  by_cases hne : rules.length = 0
  · rw [if_pos hne]
    simp only [hs, bind, Except.bind]
    exact ⟨_, rfl⟩
  rw [if_neg hne]
  simp only [activations, mapM_act h, bind, Except.bind]
  obtain ⟨u, hu⟩ := multiOr_total (R := R) hm (acts := rules.map fun m => m.rule.act.getD []) (n := n)
    (by intro e; exact hne (by simpa using congrArg List.length e))
    (by
      intro v hv
      obtain ⟨m, hm', rfl⟩ := List.mem_map.1 hv
      exact stored_length (h m hm'))
  split
  · exact ⟨_, rfl⟩
  · rw [hs]
    exact ⟨_, rfl⟩
  · rename_i hx
    cases hx
    unfold unionAll
    rw [hu]
    exact ⟨_, rfl⟩

theorem evaluateStacked_total {n : Nat} {rules : List Member} (h : ∀ m ∈ rules, HasPoints n m) : ∃ c, evaluateStacked R none rules = .ok c := by
  unfold evaluateStacked
  split
  · exact ⟨_, rfl⟩
  simp only [activations, mapM_act h, bind, Except.bind, namedColumns_stored, Vote.frameOf]
  have hall : ∀ p ∈ Vote.dictOf (columnsOf R rules), p.2.length = n := by
    intro p hp
    have := Range.dictOf_mem hp
    obtain ⟨m, hm, rfl⟩ := List.mem_map.1 this
    exact stored_length (h m hm)
  generalize Vote.dictOf (columnsOf R rules) = d at hall
  cases d with
  | nil => exact ⟨_, rfl⟩
  | cons c rest =>
    simp only
    rw [if_pos]
    · exact ⟨_, rfl⟩
    · rw [List.all_eq_true]
      intro x hx
      rw [decide_eq_true_eq, hall x (by simp [hx]), hall c (by simp)]

theorem recomputeSelf_total (hs : ∀ v, R.env.store v = .ok ()) (hm : ∀ l, R.multi l = .ok ()) {n : Nat} {s : RuleSet}
    (h : ∀ m ∈ s.rules, HasPoints n m) : ∃ a, recomputeSelf R s = (.ok (), { s with act := a }) := by
  obtain ⟨a, ha⟩ := evaluateSelf_total hs hm h
  refine ⟨a, ?_⟩
  unfold recomputeSelf computeSelf
  rw [Py.bind_ok (Py.modify_run _ _), Py.bind_ok (Py.get_run _), Py.bind_ok (a := a) (s' := { s with act := none })]
  · rfl
  · show Py.ofExcept (evaluateSelf R none s.rules) _ = _
    rw [ha]
    rfl

theorem recomputeStacked_total {n : Nat} {s : RuleSet} (h : ∀ m ∈ s.rules, HasPoints n m) :
    ∃ c, recomputeStacked R s = (.ok (), { s with stacked := c }) := by
  obtain ⟨c, hc⟩ := evaluateStacked_total (R := R) h
  refine ⟨c, ?_⟩
  unfold recomputeStacked computeStacked
  rw [Py.bind_ok (Py.modify_run _ _), Py.bind_ok (Py.get_run _), Py.bind_ok (a := c) (s' := { s with stacked := none })]
  · rfl
  · show Py.ofExcept (evaluateStacked R none s.rules) _ = _
    rw [hc]
    rfl

theorem clearActivation_total (hc : ∀ n, R.clear n = .ok ()) (s : RuleSet) : ∃ a, clearActivation R s = (.ok (), { s with act := a }) := by
  unfold clearActivation
  rw [Py.bind_ok (Py.get_run _)]
  cases ha : s.act with
  | none => exact ⟨none, by simp only [Py.pure_run]; rw [← ha]⟩
  | some v =>
    refine ⟨some (v.map fun _ => 0), ?_⟩
    simp only
    rw [hc]
    rfl

/-! ## Rules which are kept -/

/-- Two rulesets in the middle of the two runs -/
def Twin (xs xs' : Xs) (t t' : RuleSet) : Prop := List.Forall₂ (Joint xs xs') t.rules t'.rules ∧ t.ruleType = t'.ruleType ∧ t.stack = t'.stack

theorem append_same {xs xs' : Xs} {m m' : Member} (hm : Joint xs xs' m m') {s s' : RuleSet} (h : Twin xs xs' s s') :
    SameEnd (Twin xs xs') (append R m false s) (append R m' false s') := by
  obtain ⟨h1, h2, h3⟩ := h
  have run : ∀ (m : Member) (s : RuleSet),
      append R m false s = (iaddRule R m >>= fun _ => Py.modify fun t => { t with compute := true, stack := s.stack }) { s with compute := false, stack := false } := by
    intro m s
    unfold append
    rw [Py.bind_ok (Py.get_run _), if_neg (by simp), Py.bind_ok (Py.modify_run _ _)]
  have push : ∀ (m : Member) (s : RuleSet), (s.ruleType = none ∨ s.ruleType = some m.kind) → pushRule m { s with compute := false, stack := false } =
      (.ok (), { s with compute := false, stack := false, ruleType := some m.kind, rules := s.rules ++ [m] }) := by
    intro m s hk
    unfold pushRule
    rw [Py.bind_ok (Py.get_run _)]
    rcases hk with hk | hk
    · simp only [hk]
      rfl
    · simp only [hk, if_true]
      rw [Py.modify_run, ← hk]
  have ok : ∀ (m : Member) (s : RuleSet) (idx : List Int) (names : List String), m.rule.cond.indexes = some idx → m.rule.cond.names = some names →
      (s.ruleType = none ∨ s.ruleType = some m.kind) →
      ∃ t, append R m false s = (.ok (), t) ∧ t.rules = s.rules ++ [m] ∧ t.ruleType = some m.kind ∧ t.stack = s.stack := by
    intro m s idx names hi hn hk
    rw [run, iaddRule]
    rw [RowOrder.bind_assoc', Py.bind_ok (push m s hk), hi, hn]
    exact ⟨_, rfl, rfl, rfl, rfl⟩
  have bad : ∀ (m : Member) (s : RuleSet), (¬ (s.ruleType = none ∨ s.ruleType = some m.kind) ∨ m.rule.cond.indexes = none ∨ m.rule.cond.names = none) →
      ∃ t, append R m false s = (.error .typeError, t) := by
    intro m s hb
    rw [run, iaddRule]
    by_cases hk : s.ruleType = none ∨ s.ruleType = some m.kind
    · have hpush := push m s hk
      rw [RowOrder.bind_assoc', Py.bind_ok hpush]
      cases hi : m.rule.cond.indexes with
      | none => exact ⟨_, rfl⟩
      | some idx =>
        cases hn : m.rule.cond.names with
        | none => exact ⟨_, rfl⟩
        | some names =>
          rcases hb with hb | hb | hb
          · exact absurd hk hb
          · rw [hi] at hb; cases hb
          · rw [hn] at hb; cases hb
    · have hpush : pushRule m { s with compute := false, stack := false } = (.error .typeError, { s with compute := false, stack := false }) := by
        unfold pushRule
        rw [Py.bind_ok (Py.get_run _)]
        cases ht : s.ruleType with
        | none => exact absurd (.inl ht) hk
        | some k =>
          simp only [ht]
          rw [if_neg fun e => hk (.inr (by rw [ht, e]))]
          rfl
      rw [RowOrder.bind_assoc', Py.bind_err hpush]
      exact ⟨_, rfl⟩
  have both : (¬ (s.ruleType = none ∨ s.ruleType = some m.kind) ∨ m.rule.cond.indexes = none ∨ m.rule.cond.names = none) →
      SameEnd (Twin xs xs') (append R m false s) (append R m' false s') := by
    intro hb
    obtain ⟨t, e⟩ := bad m s hb
    obtain ⟨t', e'⟩ := bad m' s' (by rw [← h2, hm.1, hm.cond]; exact hb)
    exact .inl ⟨_, t, t', e, e'⟩
  by_cases hk : s.ruleType = none ∨ s.ruleType = some m.kind
  · have hk' : s'.ruleType = none ∨ s'.ruleType = some m'.kind := by rw [← h2, hm.1]; exact hk
    cases hi : m.rule.cond.indexes with
    | none => exact both (.inr (.inl hi))
    | some idx =>
      cases hn : m.rule.cond.names with
      | none => exact both (.inr (.inr hn))
      | some names =>
        obtain ⟨t, e1, e2, e3, e4⟩ := ok m s idx names hi hn hk
        obtain ⟨t', e1', e2', e3', e4'⟩ := ok m' s' idx names (by rw [hm.cond]; exact hi) (by rw [hm.cond]; exact hn) hk'
        refine same_ok e1 e1' ⟨?_, ?_, ?_⟩
        · rw [e2, e2']
          exact List.rel_append h1 (.cons hm .nil)
        · rw [e3, e3', hm.1]
        · rw [e4, e4', h3]
  · exact both (.inl hk)

theorem appendAll_same {xs xs' : Xs} {l l' : List Member} (hl : List.Forall₂ (Joint xs xs') l l') {s s' : RuleSet} (h : Twin xs xs' s s') :
    SameEnd (Twin xs xs') (appendAll R l s) (appendAll R l' s') := by
  induction hl generalizing s s' with
  | nil => exact same_ok rfl rfl h
  | @cons m m' l l' hm _ ih => exact same_bind (append_same hm h) fun _ _ _ _ ht => ih ht

/-- The same rule at the same place -/
def At (xs xs' : Xs) (p p' : Member × Nat) : Prop := Joint xs xs' p.1 p'.1 ∧ p.2 = p'.2

theorem zipIdx_joint {xs xs' : Xs} {l l' : List Member} (h : List.Forall₂ (Joint xs xs') l l') (n : Nat) :
    List.Forall₂ (At xs xs') (l.zipIdx n) (l'.zipIdx n) := by
  induction h generalizing n with
  | nil => exact .nil
  | cons hm _ ih => exact .cons ⟨hm, rfl⟩ (ih (n + 1))

theorem badRules_joint {xs xs' : Xs} {l l' : List Member} (h : List.Forall₂ (Joint xs xs') l l') :
    List.Forall₂ (At xs xs') (badRules l) (badRules l') :=
  filter_forall₂ (fun _ _ hab => by rw [hab.1.good]) (zipIdx_joint h 0)

theorem isDropped_joint {H : Cond.Hasher} {xs xs' : Xs} {d d' : List (Member × Nat)} (h : List.Forall₂ (At xs xs') d d') {p p' : Member × Nat}
    (hp : At xs xs' p p') : isDropped H d p = isDropped H d' p' := by
  induction h with
  | nil => rfl
  | cons hd _ ih =>
    unfold isDropped
    rw [hd.2, hp.2, hd.1.cond, hp.1.cond, ih]

theorem keepRules_joint {H : Cond.Hasher} {xs xs' : Xs} {d d' : List (Member × Nat)} (h : List.Forall₂ (At xs xs') d d')
    {l l' : List (Member × Nat)} (hl : List.Forall₂ (At xs xs') l l') :
    (∃ e, keepRules H d l = .error e ∧ keepRules H d' l' = .error e) ∨
      ∃ k k', keepRules H d l = .ok k ∧ keepRules H d' l' = .ok k' ∧ List.Forall₂ (Joint xs xs') k k' := by
  induction hl with
  | nil => exact .inr ⟨[], [], rfl, rfl, .nil⟩
  | @cons p p' l l' hp _ ih =>
    unfold keepRules
    rw [isDropped_joint h hp]
    simp only [bind, Except.bind]
    cases isDropped H d' p' with
    | error e => exact .inl ⟨e, rfl, rfl⟩
    | ok b =>
      rcases ih with ⟨e, e1, e2⟩ | ⟨k, k', e1, e2, hk⟩
      · rw [e1, e2]
        exact .inl ⟨e, rfl, rfl⟩
      · rw [e1, e2]
        cases b
        · exact .inr ⟨_, _, rfl, rfl, .cons hp.1 hk⟩
        · exact .inr ⟨_, _, rfl, rfl, hk⟩

theorem dropRules_same (hc : ∀ n, R.clear n = .ok ()) {xs xs' : Xs} {d d' : List (Member × Nat)} (hd : List.Forall₂ (At xs xs') d d')
    {s s' : RuleSet} (h : Twin xs xs' s s') : SameEnd (Twin xs xs') (dropRules R d s) (dropRules R d' s') := by
  have run : ∀ {d : List (Member × Nat)} {s : RuleSet} {k : List Member} {a : Option (List Nat)}, keepRules R.hasher d s.rules.zipIdx = .ok k →
      clearActivation R { s with rules := [] } = (.ok (), { s with rules := [], act := a }) →
      dropRules R d s = appendAll R k { s with rules := [], act := a, stacked := none } := by
    intro d s k a h1 h2
    unfold dropRules
    rw [Py.bind_ok (Py.get_run _), Py.bind_ok (show Py.ofExcept (keepRules R.hasher d s.rules.zipIdx) s = (.ok k, s) by rw [h1]; rfl),
      Py.bind_ok (Py.modify_run _ _), Py.bind_ok h2, Py.bind_ok (Py.modify_run _ _)]
  have err : ∀ {d : List (Member × Nat)} {s : RuleSet} {e : Err}, keepRules R.hasher d s.rules.zipIdx = .error e → dropRules R d s = (.error e, s) := by
    intro d s e h1
    unfold dropRules
    rw [Py.bind_ok (Py.get_run _), Py.bind_err (show Py.ofExcept (keepRules R.hasher d s.rules.zipIdx) s = (.error e, s) by rw [h1]; rfl)]
  rcases keepRules_joint (H := R.hasher) hd (zipIdx_joint h.1 0) with ⟨e, e1, e2⟩ | ⟨k, k', e1, e2, hk⟩
  · exact .inl ⟨e, _, _, err e1, err e2⟩
  · obtain ⟨a, ha⟩ := clearActivation_total hc { s with rules := [] }
    obtain ⟨a', ha'⟩ := clearActivation_total hc { s' with rules := [] }
    rw [run e1 ha, run e2 ha']
    exact appendAll_same hk ⟨.nil, h.2.1, h.2.2⟩

/-! ## After the rules have been fitted -/

theorem recomputeSelf_same (hs : ∀ v, R.env.store v = .ok ()) (hm : ∀ l, R.multi l = .ok ()) {xs xs' : Xs} {s s' : RuleSet} (h : Twin xs xs' s s') :
    SameEnd (Twin xs xs') (recomputeSelf R s) (recomputeSelf R s') := by
  obtain ⟨a, ha⟩ := recomputeSelf_total hs hm (joint_points h.1).1
  obtain ⟨a', ha'⟩ := recomputeSelf_total hs hm (joint_points h.1).2
  exact same_ok ha ha' h

theorem recomputeStacked_same {xs xs' : Xs} {s s' : RuleSet} (h : Twin xs xs' s s') :
    SameEnd (Twin xs xs') (recomputeStacked R s) (recomputeStacked R s') := by
  obtain ⟨a, ha⟩ := recomputeStacked_total (R := R) (joint_points h.1).1
  obtain ⟨a', ha'⟩ := recomputeStacked_total (R := R) (joint_points h.1).2
  exact same_ok ha ha' h

theorem whenSet_same {Q : RuleSet → RuleSet → Prop} {c c' : RuleSet → Bool} {m m' : Py RuleSet Unit} {s s' : RuleSet} (hc : c s = c' s') (h : Q s s')
    (hm : SameEnd Q (m s) (m' s')) : SameEnd Q (whenSet c m s) (whenSet c' m' s') := by
  unfold whenSet
  rw [Py.bind_ok (Py.get_run _), Py.bind_ok (Py.get_run _)]
  cases hb : c s
  · rw [hc] at hb
    rw [if_neg (by simp), if_neg (by simp [hb])]
    exact same_ok rfl rfl h
  · rw [hc] at hb
    rw [if_pos rfl, if_pos hb]
    exact hm

theorem afterFit_same (hs : ∀ v, R.env.store v = .ok ()) (hm : ∀ l, R.multi l = .ok ()) (hc : ∀ n, R.clear n = .ok ()) {xs xs' : Xs}
    {d d' : List (Member × Nat)} (hd : List.Forall₂ (At xs xs') d d') {s s' : RuleSet} (h : Twin xs xs' s s') :
    SameEnd (Twin xs xs') (afterFit R d true s) (afterFit R d' true s') := by
  unfold afterFit
  by_cases h0 : d.length > 0
  · rw [if_pos h0, if_pos (by rw [← hd.length_eq]; exact h0)]
    exact same_bind (dropRules_same hc hd h) fun _ _ _ _ h => same_bind (recomputeSelf_same hs hm h) fun _ _ _ _ h =>
      whenSet_same h.2.2 h (recomputeStacked_same h)
  · rw [if_neg h0, if_neg (by rw [← hd.length_eq]; exact h0)]
    exact same_bind (whenSet_same (by simp) h (recomputeSelf_same hs hm h)) fun _ _ _ _ h =>
      whenSet_same (by simp [h.2.2]) h (recomputeStacked_same h)

/-! ## One rule after the other -/

theorem eachRule_same {f f' : Env → Py Rule Unit} {l : List Member} (h : ∀ m ∈ l, (f (R.ofKind m.kind) m.rule).1 = (f' (R.ofKind m.kind) m.rule).1) :
    (eachRule R f l).1 = (eachRule R f' l).1 := by
  induction l with
  | nil => rfl
  | cons m l ih =>
    have h0 := h m (by simp)
    have ih := ih fun m hm => h m (by simp [hm])
    rcases e : f (R.ofKind m.kind) m.rule with ⟨x, r⟩
    rcases e' : f' (R.ofKind m.kind) m.rule with ⟨x', r'⟩
    rw [e, e'] at h0
    simp only at h0
    subst h0
    simp only [eachRule, onRule, e, e']
    cases x with
    | error e => rfl
    | ok u => exact ih

theorem forRules_same (hR : ∀ k, OrderFree (R.ofKind k)) {xs xs' : Xs} {y y' : List Label} (hp : SamePoints xs y xs' y') (h0 : xs.length ≠ 0)
    (force : Bool) (kw : Rule.Kw) (s : RuleSet) :
    SameEnd (Twin xs xs') (forRules R (fun E => Rule.fit E y (some xs) force kw) s) (forRules R (fun E => Rule.fit E y' (some xs') force kw) s) := by
  have h1 := eachRule_same (R := R) (f := fun E => Rule.fit E y (some xs) force kw) (f' := fun E => Rule.fit E y' (some xs') force kw) (l := s.rules)
    fun m _ => (fit_order (P := fun a a' => a = a') (hR m.kind) hp force kw (r := m.rule) (r' := m.rule) ⟨rfl, rfl⟩).1
  unfold forRules
  rcases e : eachRule R (fun E => Rule.fit E y (some xs) force kw) s.rules with ⟨x, l⟩
  rcases e' : eachRule R (fun E => Rule.fit E y' (some xs') force kw) s.rules with ⟨x', l'⟩
  rw [e, e'] at h1
  simp only at h1
  subst h1
  cases x with
  | error err => exact .inl ⟨err, _, _, rfl, rfl⟩
  | ok u => exact same_ok rfl rfl ⟨eachDone_joint hR hp h0 (eachRule_ok e) (eachRule_ok e'), rfl, rfl⟩

theorem fit_same (hs : ∀ v, R.env.store v = .ok ()) (hm : ∀ l, R.multi l = .ok ()) (hc : ∀ n, R.clear n = .ok ())
    (hR : ∀ k, OrderFree (R.ofKind k)) {xs xs' : Xs} {y y' : List Label} (hp : SamePoints xs y xs' y') (h0 : xs.length ≠ 0)
    (force : Bool) (kw : Rule.Kw) (s : RuleSet) :
    SameEnd (fun _ _ => True) (RuleSet.fit R y (some xs) force kw s) (RuleSet.fit R y' (some xs') force kw s) := by
  have h0' : xs'.length ≠ 0 := by rw [← (length_order hp).1]; exact h0
  unfold RuleSet.fit
  refine same_bind (Q := fun t t' => t = s ∧ t' = s) ?_ ?_
  · unfold needType
    rw [Py.bind_ok (Py.get_run _)]
    cases s.ruleType with
    | none => exact .inl ⟨_, _, _, rfl, rfl⟩
    | some k => exact same_ok rfl rfl ⟨rfl, rfl⟩
  rintro _ _ t t' ⟨rfl, rfl⟩
  by_cases hk : kw.hasMethod = true
  · rw [if_pos hk, if_pos hk]
    exact .inl ⟨_, _, _, rfl, rfl⟩
  rw [if_neg hk, if_neg hk, Py.bind_ok (Py.get_run _), Py.bind_ok (Py.get_run _), 
    if_neg (show ¬ (some xs).any (fun x => x.length = 0) = true by simpa using h0), if_neg (show ¬ (some xs').any (fun x => x.length = 0) = true by simpa using h0')]
  by_cases hl : t'.rules.length = 0
  · rw [if_pos hl, if_pos hl]
    exact same_ok rfl rfl trivial
  rw [if_neg hl, if_neg hl, if_neg (show ¬ (t'.rules.all (fun m => m.rule.fitted) && (some xs).isNone) = true by simp),
    if_neg (show ¬ (t'.rules.all (fun m => m.rule.fitted) && (some xs').isNone) = true by simp)]
  refine same_bind (forRules_same hR hp h0 force kw t') fun _ _ u u' hu => ?_
  rw [Py.bind_ok (Py.get_run _), Py.bind_ok (Py.get_run _)]
  exact same_bind (afterFit_same hs hm hc (badRules_joint hu.1) hu) fun _ _ _ _ _ => same_ok rfl rfl trivial

end Verif.RowOrder
