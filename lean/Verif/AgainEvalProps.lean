import Verif.AgainEvalLemmas

/-!
# C68: evaluating a ruleset again
-/

namespace Verif.AgainSetProps

open Verif Spec RuleSet RuleSetProps Again AgainProps LoadPredict

open Classical in
/-- **C68 (eval of rulesets), partial.** When `eval(y, xs)` of a ruleset whose rules are fitted goes through, the same `eval` once more goes through, drops
nothing and changes nothing: rules, activation, stacked activations, criterion and sizes stay.  Missing: rules which are not fitted; with
`keep_new_activations=True` see `C68_set_eval_keep_partial`; without features it is false (`C68_set_eval_false`). -/
theorem C68_set_eval_partial {R : RsEnv} {y : List Label} {x : Xs} {w : Option Vote.WeightsArg} {force : Bool} {kw : Rule.Kw} {s s' : RuleSet}
    {dropped : List Member} (hR : ∀ k, Listed (R.ofKind k)) (hst : R.stackedFit = false) (hs : Announced s) (hx : x.length ≠ 0)
    (hf : ∀ m ∈ s.rules, m.rule.fitted = true) (h : eval R y (some x) false w force kw s = (.ok dropped, s')) :
    ∃ s'', eval R y (some x) false w force kw s' = (.ok [], s'') ∧ List.Forall₂ SameMember s'.rules s''.rules ∧ s'' = { s' with rules := s''.rules } := by
  have hsame : ∀ l : List Member, List.Forall₂ SameMember l l := fun l => by
    rw [List.forall₂_same]
    exact fun m _ => rfl
  have h0 := h
  rcases eval_ok h with ⟨rfl, rfl, -⟩ | ⟨l, s1, s2, keep', hkeep, hl, ha, hc, hs', -⟩
  · exact ⟨s', h, hsame _, rfl⟩
  obtain ⟨k, hkw, hk⟩ : ∃ k, kw.hasMethod = false ∧ s.ruleType = some k := by
    unfold eval at h
    obtain ⟨k, s0, e1, h⟩ := Py.bind_eq_ok h
    refine ⟨k, ?_, ?_⟩
    · cases hkw : kw.hasMethod with
      | false => rfl
      | true => rw [hkw, if_pos rfl, Py.throw_run] at h; cases h
    · unfold needType at e1
      rw [Py.bind_ok (Py.get_run s)] at e1
      cases hk : s.ruleType with
      | none => simp [hk, Py.throw_run] at e1
      | some k' =>
        simp only [hk, Py.pure_run, Prod.mk.injEq, Except.ok.injEq] at e1
        rw [e1.1]
  have hall : (s.rules.all fun m => m.rule.fitted) = true := by simpa using hf
  have hkeep : keep' = false := by simp [hkeep, hall]
  subst hkeep
  simp only [Bool.and_false, Bool.false_eq_true, if_false] at ha hc
  have hset := afterEval_settled ha
  have hk1 : s1.ruleType = some k := afterEval_type (s := { s with rules := l }) hk ha
  have hmem : ∀ m ∈ s1.rules, m ∈ l ∧ m.rule.good = true := by
    intro m hm
    have e : s1.rules = l.filter fun m => Stays R.hasher l m := by
      rcases (afterEval_ok (s := { s with rules := l }) ha).2 with ⟨hb, hr⟩ | hk
      · rw [hr]
        exact stays_none hb
      · exact keepRules_bad hk
    rw [e, List.mem_filter, decide_eq_true_eq] at hm
    exact ⟨hm.1, hm.2.1⟩
  have hfrom : ∀ m ∈ s1.rules, ∃ m0 ∈ s.rules, m.kind = m0.kind ∧ Rule.eval (R.ofKind m0.kind) y (some x) false force kw m0.rule = (.ok (), m.rule) := by
    intro m hm
    have := (hmem m hm).1
    unfold EachDone at hl
    clear h hs hk hset hk1 hmem hall hf hkeep ha h0
    generalize s.rules = l0 at hl
    induction hl with
    | nil => cases this
    | @cons a b l l' hab _ ih =>
      rcases List.mem_cons.1 this with rfl | hm
      · exact ⟨a, List.mem_cons_self .., hab⟩
      · obtain ⟨m0, h0, h1⟩ := ih hm
        exact ⟨m0, List.mem_cons_of_mem _ h0, h1⟩
  have hx' : ∀ x', some x = some x' → x'.length ≠ 0 := by rintro _ ⟨⟩; exact hx
  have hkind : ∀ m ∈ s1.rules, m.kind = k := by
    intro m hm
    obtain ⟨m0, h0, h1, -⟩ := hfrom m hm
    have := hs m0 h0
    rw [hk] at this
    rw [h1]
    exact (Option.some.inj this).symm
  have hfit : ∀ m ∈ s1.rules, m.rule.fitted = true := by
    intro m hm
    obtain ⟨m0, h0, h1, h2⟩ := hfrom m hm
    rw [(eval_passes h2 (hmem m hm).2 hx').2]
    exact hf m0 h0
  have hu1 : Unstacked R s1 := .inl hst
  obtain ⟨c, honly⟩ := calcCriterion_only (y := y) (x := x) (w := w) (kw := kw) hu1 hk1 hkind
  rw [hc] at honly
  have e2 : s2 = { s1 with criterion := c } := honly
  subst e2
  have hk' : s'.ruleType = some k := by rw [hs']; exact hk1
  have hr' : s'.rules = s1.rules := by rw [hs']
  by_cases hne : s1.rules = []
  · refine ⟨s', ?_, hsame _, rfl⟩
    unfold eval
    rw [Py.bind_ok (needType_run hk'), hkw, if_neg (by simp), Py.bind_ok (Py.get_run _),
      if_neg (by simpa using hx), if_pos (by rw [hr', hne]; rfl)]
    rfl
  have hstill : ∀ m ∈ s1.rules, ∃ j, Rule.eval (R.ofKind m.kind) y (some x) false force kw m.rule = (.ok (), { m.rule with log := j }) := by
    intro m hm
    obtain ⟨m0, h0, h1, h2⟩ := hfrom m hm
    rw [h1]
    exact C68_eval (hR _) h2 (hmem m hm).2
  obtain ⟨l', hl', hsm⟩ := eachRule_still (f := fun E => Rule.eval E y (some x) false force kw) hstill
  have hbad : badRules l' = [] := badRules_none (SameMember.good hsm fun m hm => (hmem m hm).2)
  obtain ⟨t, ht⟩ : ∃ t : RuleSet, t = { s' with rules := l' } := ⟨_, rfl⟩
  have ht1 : t.rules = l' := by rw [ht]
  have ht2 : t = { s1 with rules := l', criterion := c, testSize := .num (.fin y.length) } := by rw [ht, hs']
  have hset' : Settled R t := by
    rw [ht2]
    refine ⟨fun e => ?_, fun e1 e2 => ?_⟩
    · show evaluateSelf R none l' = .ok s1.act
      rw [SameMember.self hsm]
      exact hset.self e
    · show evaluateStacked R none l' = .ok s1.stacked
      rw [SameMember.stacked hsm]
      exact hset.stacked e1 e2
  have hpeer : List.Forall₂ (Peer R k w) s1.rules t.rules := by
    have : ∀ {a b : List Member}, List.Forall₂ SameMember a b → (∀ m ∈ a, m.kind = k) → List.Forall₂ (Peer R k w) a b := by
      intro a b hab
      induction hab with
      | nil => exact fun _ => .nil
      | @cons m m' a b hm _ ih =>
        intro ha
        have hk := ha m (List.mem_cons_self ..)
        refine .cons ?_ (ih fun m hm => ha m (List.mem_cons_of_mem _ hm))
        rw [hm]
        exact ⟨hk, hk, ⟨rfl, rfl⟩, fun _ _ => rfl⟩
    rw [ht1]
    exact this hsm hkind
  have hcrit : calcCriterion R y (some x) w kw t = (.ok (), t) := by
    have hut : Unstacked R t := .inl hst
    have hkt : t.ruleType = some k := by rw [ht]; exact hk'
    obtain ⟨c1, c2⟩ := calcCriterion_peers (x := x) (y := y) (kw := kw) hu1 hut hk1 hkt hpeer (fun e => hne (List.eq_nil_of_length_eq_zero e))
    have hkindt : ∀ m ∈ t.rules, m.kind = k := by
      intro m hm
      obtain ⟨i, hi, rfl⟩ := List.mem_iff_getElem.1 hm
      have := hpeer.get (i := i) (by rw [hpeer.length_eq]; exact hi) hi
      exact this.2.1
    obtain ⟨c', honly'⟩ := calcCriterion_only (y := y) (x := x) (w := w) (kw := kw) hut hkt hkindt
    rw [hc] at c1 c2
    have c2 := c2 rfl
    refine Prod.ext c1 ?_
    rw [honly'] at c2 ⊢
    have : c' = c := c2
    subst this
    rw [ht2]
  refine ⟨t, ?_, by rw [ht1, hr']; exact hsm, by rw [ht]⟩
  unfold eval
  have hlen : s'.rules.length ≠ 0 := fun e => hne (hr' ▸ List.eq_nil_of_length_eq_zero e)
  have hall1 : (s'.rules.all fun m => m.rule.fitted) = true := by rw [hr']; simpa using hfit
  rw [Py.bind_ok (needType_run hk'), hkw, if_neg (by simp), Py.bind_ok (Py.get_run _),
    if_neg (by simpa using hx), if_neg hlen, if_neg (by simp [hall1])]
  simp only [hall1, Bool.not_true, Bool.or_false]
  rw [Py.bind_ok (show forRules R (fun E => Rule.eval E y (some x) false force kw) s' = (.ok (), t) by
    simp only [forRules, hr', hl', ht])]
  rw [Py.bind_ok (Py.get_run _)]
  have hbt : badRules t.rules = [] := by rw [ht1]; exact hbad
  simp only [hbt, Bool.and_false]
  rw [Py.bind_ok (settled_still hset'), if_neg (by simp), Py.bind_ok hcrit]
  unfold calcTestSetSize
  rw [Py.bind_ok (Py.modify_run _ _)]
  simp only [List.map_nil, Py.pure_run]
  rw [ht2]

/-- The ruleset after a fit which drops one of three rules -/
def fittedTwo : RuleSet := (fit listedRs someY (some RuleProps.someXs) false {} unfitted).2

/-- `eval` on other targets -/
example : Announced fittedTwo ∧ (∀ m ∈ fittedTwo.rules, m.rule.fitted = true) ∧ fittedTwo.rules.length = 2 ∧
    (eval listedRs RuleFlagProps.fourY (some RuleProps.someXs) false none false {} fittedTwo).1 = .ok [] ∧
    (eval listedRs RuleFlagProps.fourY (some RuleProps.someXs) false none false {} fittedTwo).2.testSize = .num (.fin 4) := by
  refine ⟨?_, ?_⟩
  · unfold Announced
    decide +kernel
  · decide +kernel

open Classical in
/-- **C68 (eval of rulesets which keeps the new activations), partial.** When `eval(y, xs, keep_new_activations=True)` of a ruleset goes through, the same `eval`
once more goes through, drops nothing and changes nothing, whether its rules were fitted or not.  (`storedRaw` tells whether an activation is stored as an
array; it does not look at the record of checks, which is not in the code.)  Missing: `keep_new_activations=False` with rules which are not fitted. -/
theorem C68_set_eval_keep_partial {R : RsEnv} {y : List Label} {x : Xs} {w : Option Vote.WeightsArg} {force : Bool} {kw : Rule.Kw} {s s' : RuleSet}
    {dropped : List Member} (hR : ∀ k, Listed (R.ofKind k)) (hraw : RawSees R.storedRaw) (hst : R.stackedFit = false) (hs : Announced s) (hx : x.length ≠ 0)
    (h : eval R y (some x) true w force kw s = (.ok dropped, s')) :
    ∃ s'', eval R y (some x) true w force kw s' = (.ok [], s'') ∧ List.Forall₂ SameMember s'.rules s''.rules ∧ s'' = { s' with rules := s''.rules } := by
  have hsame : ∀ l : List Member, List.Forall₂ SameMember l l := fun l => by
    rw [List.forall₂_same]
    exact fun m _ => rfl
  have h0 := h
  rcases eval_ok h with ⟨rfl, rfl, -⟩ | ⟨l, s1, s2, keep', hkeep, hl, ha, hc, hs', -⟩
  · exact ⟨s', h, hsame _, rfl⟩
  obtain ⟨k, hkw, hk⟩ : ∃ k, kw.hasMethod = false ∧ s.ruleType = some k := by
    unfold eval at h
    obtain ⟨k, s0, e1, h⟩ := Py.bind_eq_ok h
    refine ⟨k, ?_, ?_⟩
    · cases hkw : kw.hasMethod with
      | false => rfl
      | true => rw [hkw, if_pos rfl, Py.throw_run] at h; cases h
    · unfold needType at e1
      rw [Py.bind_ok (Py.get_run s)] at e1
      cases hk : s.ruleType with
      | none => simp [hk, Py.throw_run] at e1
      | some k' =>
        simp only [hk, Py.pure_run, Prod.mk.injEq, Except.ok.injEq] at e1
        rw [e1.1]
  have hkeep : keep' = true := by simp [hkeep]
  subst hkeep
  simp only [Option.isSome_some, Bool.and_true, if_true] at ha hc
  have haf := (afterEval_ok (s := { s with rules := l }) ha).1
  have hself := haf.recomputed (.inl rfl)
  have hk1 : s1.ruleType = some k := afterEval_type (s := { s with rules := l }) hk ha
  have hmem : ∀ m ∈ s1.rules, m ∈ l ∧ m.rule.good = true := by
    intro m hm
    have e : s1.rules = l.filter fun m => Stays R.hasher l m := by
      rcases (afterEval_ok (s := { s with rules := l }) ha).2 with ⟨hb, hr⟩ | hk
      · rw [hr]
        exact stays_none hb
      · exact keepRules_bad hk
    rw [e, List.mem_filter, decide_eq_true_eq] at hm
    exact ⟨hm.1, hm.2.1⟩
  have hfrom : ∀ m ∈ s1.rules, ∃ m0 ∈ s.rules, m.kind = m0.kind ∧ Rule.eval (R.ofKind m0.kind) y (some x) true force kw m0.rule = (.ok (), m.rule) := by
    intro m hm
    have := (hmem m hm).1
    unfold EachDone at hl
    clear h hs hk haf hself hk1 hmem hkeep ha h0
    generalize s.rules = l0 at hl
    induction hl with
    | nil => cases this
    | @cons a b l l' hab _ ih =>
      rcases List.mem_cons.1 this with rfl | hm
      · exact ⟨a, List.mem_cons_self .., hab⟩
      · obtain ⟨m0, h0, h1⟩ := ih hm
        exact ⟨m0, List.mem_cons_of_mem _ h0, h1⟩
  obtain ⟨r2, a2, c2, h3⟩ := calcCriterion_three (R := R) y none w kw s1
  have hfr := (calcCriterion_frame (R := R) y none w kw s1).1
  rw [hc] at h3 hfr
  replace h3 : s2 = { s1 with rules := r2, act := a2, criterion := c2 } := h3
  replace hfr : List.Forall₂ SameButActivation s1.rules s2.rules := hfr
  have hr' : s'.rules = r2 := by rw [hs', h3]
  have hk' : s'.ruleType = some k := by rw [hs', h3]; exact hk1
  rw [h3] at hfr
  replace hfr : List.Forall₂ SameButActivation s1.rules r2 := hfr
  by_cases hne : s1.rules = []
  · have hr2 : r2 = [] := by
      rw [hne] at hfr
      cases hfr
      rfl
    refine ⟨s', ?_, hsame _, rfl⟩
    unfold eval
    rw [Py.bind_ok (needType_run hk'), hkw, if_neg (by simp), Py.bind_ok (Py.get_run _),
      if_neg (by simpa using hx), if_pos (by rw [hr', hr2]; rfl)]
    rfl
  have hstill : ∀ m ∈ s1.rules, ∃ j, Rule.eval (R.ofKind m.kind) y (some x) true force kw m.rule = (.ok (), { m.rule with log := j }) := by
    intro m hm
    obtain ⟨m0, h0, h1, h2⟩ := hfrom m hm
    rw [h1]
    exact C68_eval (hR _) h2 (hmem m hm).2
  obtain ⟨l', hl', hsm⟩ : ∃ l', eachRule R (fun E => Rule.eval E y (some x) true force kw) r2 = (.ok (), l') ∧ List.Forall₂ SameMember s1.rules l' := by
    have hg : ∀ m ∈ s1.rules, m.rule.good = true := fun m hm => (hmem m hm).2
    clear hfrom hmem hself haf hc h3 hs' hr' ha hk1 hne
    generalize s1.rules = l1 at hfr hstill hg
    induction hfr with
    | nil => exact ⟨[], rfl, .nil⟩
    | @cons m m' l1 r2 hm _ ih =>
      obtain ⟨j, hj⟩ := hstill m (List.mem_cons_self ..)
      obtain ⟨l', e1, e2⟩ := ih (fun m hm => hstill m (List.mem_cons_of_mem _ hm)) fun m hm => hg m (List.mem_cons_of_mem _ hm)
      have hj' := eval_replaced m'.rule.act hx (hg m (List.mem_cons_self ..)) hj
      rw [← hm.2, ← hm.1] at hj'
      refine ⟨{ m' with rule := { m.rule with log := j } } :: l', ?_, .cons ?_ e2⟩
      · simp only [eachRule, onRule, hj', e1]
      · unfold SameMember
        rw [hm.1]
  have hbad : badRules l' = [] := badRules_none (SameMember.good hsm fun m hm => (hmem m hm).2)
  obtain ⟨u, hu⟩ : ∃ u : RuleSet, u = { s1 with rules := l', criterion := c2, testSize := .num (.fin y.length) } := ⟨_, rfl⟩
  have hact : { s' with rules := l' } = { u with act := a2 } := by rw [hu, hs', h3]
  have hself' : evaluateSelf R none l' = .ok s1.act := (SameMember.self hsm).trans hself
  have hafter : afterEval R [] true { u with act := a2 } = (.ok (), u) := by
    have hself2 : recomputeSelf R { u with act := a2 } = (.ok (), u) := by
      unfold recomputeSelf computeSelf
      rw [Py.bind_ok (Py.modify_run _ _), Py.bind_ok (Py.get_run _), hu]
      simp only
      rw [hself', Py.bind_ok (Py.ofExcept_run _ _)]
      rfl
    unfold afterEval whenSet
    rw [if_neg (by simp), Py.bind_ok (a := ()) (s' := u)]
    · rw [Py.bind_ok (Py.get_run u)]
      by_cases hstk : s1.stack = true
      · have : evaluateStacked R none l' = .ok s1.stacked :=
          (SameMember.stacked hsm).trans (haf.stacked (by rw [← haf.stack]; exact hstk) (.inr rfl))
        rw [if_pos (by rw [hu]; simp [hstk])]
        unfold recomputeStacked computeStacked
        rw [Py.bind_ok (Py.modify_run _ _), Py.bind_ok (Py.get_run _), hu]
        simp only
        rw [this, Py.bind_ok (Py.ofExcept_run _ _)]
        rfl
      · rw [if_neg (by rw [hu]; simp [hstk])]
        rfl
    · rw [Py.bind_ok (Py.get_run _), if_pos (by simp)]
      exact hself2
  obtain ⟨t, ht1, ht2⟩ : ∃ t, calcCriterion R y none w kw u = (.ok (), t) ∧ t = { s' with rules := t.rules } ∧ t.rules.map noLogM = s'.rules.map noLogM := by
    have hov := calcCriterion_overwrites (d := c2) hne hk1 hc
    have hnear : Near True { s1 with criterion := c2 } u := by
      rw [hu]
      exact ⟨noLog_of_sameMember hsm, rfl, rfl, fun _ => rfl⟩
    obtain ⟨n1, n2⟩ := calcCriterion_near (b := True) hraw hst y (xs := none) w kw (fun _ => trivial) _ _ hnear
    rw [hov] at n1 n2
    obtain ⟨r3, a3, c3, h4⟩ := calcCriterion_three (R := R) y none w kw u
    refine ⟨(calcCriterion R y none w kw u).2, Prod.ext n1 rfl, ?_, ?_⟩
    · have e1 := n2.act trivial
      have e2 := n2.criterion
      rw [h4] at e1 e2 ⊢
      replace e1 : a3 = a2 := e1.trans (by rw [h3])
      replace e2 : c3 = c2 := e2.trans (by rw [h3])
      subst e1
      subst e2
      rw [hu, hs', h3]
    · have := n2.rules
      rw [this, hs']
  refine ⟨t, ?_, sameMember_of_noLog ht2.2, ht2.1⟩
  unfold eval
  have hlen : s'.rules.length ≠ 0 := by
    rw [hr', ← hfr.length_eq]
    exact fun e => hne (List.eq_nil_of_length_eq_zero e)
  rw [Py.bind_ok (needType_run hk'), hkw, if_neg (by simp), Py.bind_ok (Py.get_run _), if_neg (by simpa using hx), if_neg hlen, if_neg (by simp)]
  simp only [Bool.true_or]
  rw [Py.bind_ok (show forRules R (fun E => Rule.eval E y (some x) true force kw) s' = (.ok (), { u with act := a2 }) by
    simp only [forRules, hr', hl', ← hact])]
  rw [Py.bind_ok (Py.get_run _)]
  have hbt : badRules ({ u with act := a2 } : RuleSet).rules = [] := by rw [← hact]; exact hbad
  simp only [hbt, Option.isSome_some, Bool.and_true]
  rw [Py.bind_ok hafter, if_pos trivial, Py.bind_ok ht1]
  unfold calcTestSetSize
  rw [Py.bind_ok (Py.modify_run _ _)]
  simp only [List.map_nil, Py.pure_run]
  have : t.testSize = .num (.fin y.length) := by rw [ht2.1, hs']
  rw [← this]

/-- The activation of the first rule is changed by the prediction, in the same way both times. -/
example : RawSees listedRs.storedRaw ∧ Announced fittedTwo ∧ fittedTwo.rules.length = 2 ∧
    (eval listedRs RuleFlagProps.fourY (some RuleProps.someXs) true none false {} fittedTwo).1 = .ok [] ∧
    (eval listedRs RuleFlagProps.fourY (some RuleProps.someXs) true none false {} fittedTwo).2.rules.map (fun m => m.rule.act) =
      [some [1, 2, 2, 1], some [0, 1, 1, 0]] := by
  refine ⟨fun _ _ => rfl, ?_, ?_⟩
  · unfold Announced
    decide +kernel
  · decide +kernel

/-- **C68 is false of evaluations of rulesets without features**: `eval(y)` twice on the activations of the training set gives two criteria, of the ruleset
and of its first rule, since the prediction for the first criterion has changed the activation of this rule (see `C22_changes_false`). -/
theorem C68_set_eval_false :
    ∃ (R : RsEnv) (y : List Label) (s s' s'' : RuleSet), (∀ k, Listed (R.ofKind k)) ∧ R.stackedFit = false ∧ Announced s ∧
      (∀ m ∈ s.rules, m.rule.fitted = true) ∧ eval R y none false none false {} s = (.ok [], s') ∧ eval R y none false none false {} s' = (.ok [], s'') ∧
      s'.criterion = .num (.fin (109 / 112)) ∧ s''.criterion = .num (.fin (247 / 252)) ∧
      s'.rules.map (fun m => m.rule.criterion) = [.num (.fin 1), .num (.fin (1 / 14))] ∧
      s''.rules.map (fun m => m.rule.criterion) = [.num (.fin (19 / 7)), .num (.fin (1 / 14))] ∧
      s.rules.map (fun m => m.rule.act) = [some [1, 1, 1, 1], some [0, 1, 1, 0]] ∧
      s'.rules.map (fun m => m.rule.act) = [some [1, 2, 2, 1], some [0, 1, 1, 0]] := by
  refine ⟨listedRs, someY, fittedTwo, _, _, listedRs_listed, rfl, ?_, ?_, Prod.ext ?_ rfl, Prod.ext ?_ rfl, ?_⟩
  · unfold Announced
    decide +kernel
  all_goals decide +kernel

end Verif.AgainSetProps
