import Verif.AgainProps
import Verif.FitProps
import Verif.SetHistoryLemmas
import Verif.StackedCritLemmas

/-!
# C68: fitting a ruleset again
-/

namespace Verif.AgainSetProps

open Verif Spec RuleSet RuleSetProps Again AgainProps

/-- The same member but for the record of checks, which is not in the code. -/
def SameMember (m m' : Member) : Prop := m' = { m with rule := { m.rule with log := m'.rule.log } }

theorem SameMember.act {l l' : List Member} (h : List.Forall₂ SameMember l l') :
    (l'.mapM fun m : Member => m.rule.act) = l.mapM fun m : Member => m.rule.act := by
  induction h with
  | nil => rfl
  | @cons m m' l l' hm _ ih =>
    have : m'.rule.act = m.rule.act := by rw [hm]
    simp only [List.mapM_cons, ih, this]

theorem SameMember.columns {R : RsEnv} {l l' : List Member} (h : List.Forall₂ SameMember l l') (acts : List (List Nat)) :
    namedColumns R l' acts = namedColumns R l acts := by
  induction h generalizing acts with
  | nil => rfl
  | @cons m m' l l' hm _ ih =>
    cases acts with
    | nil => rfl
    | cons a acts =>
      have : m'.rule.cond = m.rule.cond := by rw [hm]
      show (R.condStr m'.rule.cond, a) :: namedColumns R l' acts = (R.condStr m.rule.cond, a) :: namedColumns R l acts
      rw [ih, this]

theorem SameMember.self {R : RsEnv} {l l' : List Member} (h : List.Forall₂ SameMember l l') :
    evaluateSelf R none l' = evaluateSelf R none l := by
  unfold evaluateSelf activations
  simp only [SameMember.act h, h.length_eq]

theorem SameMember.stacked {R : RsEnv} {l l' : List Member} (h : List.Forall₂ SameMember l l') :
    evaluateStacked R none l' = evaluateStacked R none l := by
  unfold evaluateStacked activations
  simp only [SameMember.act h, h.length_eq, SameMember.columns h]

/-- Every rule is left as it is by the call. -/
theorem eachRule_still {R : RsEnv} {f : Env → Py Rule Unit} {l : List Member}
    (h : ∀ m ∈ l, ∃ k, f (R.ofKind m.kind) m.rule = (.ok (), { m.rule with log := k })) :
    ∃ l', eachRule R f l = (.ok (), l') ∧ List.Forall₂ SameMember l l' := by
  induction l with
  | nil => exact ⟨[], rfl, .nil⟩
  | cons m l ih =>
    obtain ⟨k, hk⟩ := h m (List.mem_cons_self ..)
    obtain ⟨l', hl, hs⟩ := ih fun m' hm' => h m' (List.mem_cons_of_mem _ hm')
    refine ⟨{ m with rule := { m.rule with log := k } } :: l', ?_, .cons rfl hs⟩
    simp only [eachRule, onRule, hk, hl]

theorem badRules_none {l : List Member} (h : ∀ m ∈ l, m.rule.good = true) : badRules l = [] := by
  have := badRules_fst l
  have e : l.filter (fun m => !m.rule.good) = [] := by
    rw [List.filter_eq_nil_iff]
    intro m hm
    simp [h m hm]
  rw [e] at this
  exact List.map_eq_nil_iff.1 this

theorem SameMember.good {l l' : List Member} (h : List.Forall₂ SameMember l l') (hg : ∀ m ∈ l, m.rule.good = true) :
    ∀ m ∈ l', m.rule.good = true := by
  induction h with
  | nil => intro m hm; cases hm
  | @cons m m' l l' hm _ ih =>
    intro q hq
    rcases List.mem_cons.1 hq with rfl | hq
    · rw [hm]
      exact hg m (List.mem_cons_self ..)
    · exact ih (fun q hq => hg q (List.mem_cons_of_mem _ hq)) q hq

open Classical in
/-- When `fit(y, xs)` of a ruleset goes through and leaves some rule, the same `fit` once more goes through, drops nothing and changes nothing. -/
theorem again_nonempty {R : RsEnv} {y : List Label} {x : Xs} {force : Bool} {kw : Rule.Kw} {s s' : RuleSet} {dropped : List Member}
    (hR : ∀ k, Listed (R.ofKind k)) (hs : Announced s) (hx : x.length ≠ 0)
    (h : fit R y (some x) force kw s = (.ok dropped, s')) (hne : s'.rules ≠ []) :
    ∃ s'', fit R y (some x) force kw s' = (.ok [], s'') ∧ List.Forall₂ SameMember s'.rules s''.rules ∧ s'' = { s' with rules := s''.rules } := by
  have hsne : s.rules ≠ [] := by
    intro e
    rcases fit_ok h with ⟨rfl, -⟩ | ⟨l, s1, hl, ha, rfl, rfl⟩
    · exact hne e
    · rw [e] at hl
      cases hl
      rcases (afterFit_ok (s := { s with rules := [] }) ha).2 with ⟨-, hr, -⟩ | ⟨hk, -⟩
      · exact hne hr
      · exact hne (Except.ok.inj hk).symm
  have hfits : Fits s (some x) := ⟨fun x' e => by cases e; exact hx, fun e => by cases e⟩
  obtain ⟨l, hl, -, hrules, haf⟩ := fit_through hfits hsne h
  have hann : Announced s' := by
    have := Keeps.fit (R := R) y (some x) force kw s hs
    rwa [h] at this
  have hgood : ∀ m ∈ s'.rules, m.rule.good = true := by
    intro m hm
    rw [hrules, List.mem_filter, decide_eq_true_eq] at hm
    exact hm.2.1
  have hstill : ∀ m ∈ s'.rules, ∃ k, Rule.fit (R.ofKind m.kind) y (some x) force kw m.rule = (.ok (), { m.rule with log := k }) := by
    intro m hm
    have hg := hgood m hm
    rw [hrules, List.mem_filter] at hm
    obtain ⟨m0, -, hk, hf⟩ : ∃ m0 ∈ s.rules, m.kind = m0.kind ∧ Rule.fit (R.ofKind m0.kind) y (some x) force kw m0.rule = (.ok (), m.rule) := by
      have := hm.1
      unfold EachDone at hl
      clear hrules haf hm hsne h hfits
      generalize s.rules = l0 at hl
      induction hl with
      | nil => cases this
      | @cons a b l l' hab _ ih =>
        rcases List.mem_cons.1 this with rfl | hm
        · exact ⟨a, List.mem_cons_self .., hab⟩
        · obtain ⟨m0, h0, h1⟩ := ih hm
          exact ⟨m0, List.mem_cons_of_mem _ h0, h1⟩
    rw [hk]
    exact C68_fit_partial (hR _) hf hg
  obtain ⟨l', hl', hsame⟩ := eachRule_still (f := fun E => Rule.fit E y (some x) force kw) hstill
  have hbad : badRules l' = [] := badRules_none (SameMember.good hsame hgood)
  have hkw : kw.hasMethod = false := by
    obtain ⟨m, hm⟩ := List.exists_mem_of_ne_nil _ hne
    obtain ⟨k, hk⟩ := hstill m hm
    exact fit_hasMethod hk
  obtain ⟨k, hk⟩ : ∃ k, s'.ruleType = some k := by
    obtain ⟨m, hm⟩ := List.exists_mem_of_ne_nil _ hne
    exact ⟨_, hann m hm⟩
  have hself : evaluateSelf R none l' = .ok s'.act := (SameMember.self hsame).trans (haf.recomputed (.inr (.inl rfl)))
  have hsize : s'.trainSize = .num (.fin y.length) := by
    rcases fit_ok h with ⟨-, -, h | h | ⟨h, -⟩⟩ | ⟨l, s1, -, -, rfl, -⟩
    · exact absurd (by simpa using h) hx
    · exact absurd h hsne
    · cases h
    · rfl
  refine ⟨{ s' with rules := l' }, ?_, hsame, rfl⟩
  unfold fit needType
  have hlen : s'.rules.length ≠ 0 := fun e => hne (List.eq_nil_of_length_eq_zero e)
  rw [Py.bind_ok (a := k) (s' := s') (by rw [Py.bind_ok (Py.get_run s')]; simp only [hk]; rfl), hkw, if_neg (by simp),
    Py.bind_ok (Py.get_run s'), if_neg (by simpa using hx), if_neg hlen, if_neg (by simp)]
  rw [Py.bind_ok (show forRules R (fun E => Rule.fit E y (some x) force kw) s' = (.ok (), { s' with rules := l' }) by
    simp only [forRules, hl'])]
  rw [Py.bind_ok (Py.get_run _)]
  simp only [hbad]
  have hself' : recomputeSelf R { s' with rules := l' } = (.ok (), { s' with rules := l' }) := by
    unfold recomputeSelf computeSelf
    rw [Py.bind_ok (Py.modify_run _ _), Py.bind_ok (Py.get_run _)]
    simp only
    rw [hself, Py.bind_ok (Py.ofExcept_run _ _)]
    rfl
  have haf' : afterFit R [] (some x).isSome { s' with rules := l' } = (.ok (), { s' with rules := l' }) := by
    unfold afterFit whenSet
    rw [if_neg (by simp)]
    rw [Py.bind_ok (a := ()) (s' := { s' with rules := l' }) (by
      rw [Py.bind_ok (Py.get_run _), if_pos (by simp)]
      exact hself')]
    rw [Py.bind_ok (Py.get_run _)]
    by_cases hst : s'.stack = true
    · rw [if_pos (by simp [hst])]
      have hst0 : s.stack = true := by rw [← hst, haf.stack]
      have : evaluateStacked R none l' = .ok s'.stacked := (SameMember.stacked hsame).trans (haf.stacked hst0 (.inr (.inl rfl)))
      unfold recomputeStacked computeStacked
      rw [Py.bind_ok (Py.modify_run _ _), Py.bind_ok (Py.get_run _)]
      simp only
      rw [this, Py.bind_ok (Py.ofExcept_run _ _)]
      rfl
    · rw [if_neg (by simp [hst])]
      rfl
  rw [Py.bind_ok haf']
  unfold calcTrainSetSize
  rw [Py.bind_ok (Py.modify_run _ _)]
  simp only [List.map_nil, Py.pure_run, ← hsize]

/-- The same as `someRs`, where `dir(rule)` has the names of the attributes. -/
def listedRs : RsEnv := { someRs with env := { someRs.env with
  names := ["coverage", "criterion", "prediction", "sign", "std", "train_set_size", "zscore"] } }

theorem listedRs_listed (k : Kind) : Listed (listedRs.ofKind k) := by
  intro a ha
  simp only [List.mem_cons, List.not_mem_nil, or_false] at ha
  show a ∈ ["coverage", "criterion", "prediction", "sign", "std", "train_set_size", "zscore"]
  simp only [List.mem_cons, List.not_mem_nil, or_false]
  tauto

/-- The first `fit` drops a rule, the second one none. -/
example : Announced unfitted ∧ (fit listedRs someY (some RuleProps.someXs) false {} unfitted).2.rules.length = 2 ∧ unfitted.rules.length = 3 ∧
    (fit listedRs someY (some RuleProps.someXs) false {} unfitted).1.toOption.map (·.length) = some 1 ∧
    (fit listedRs someY (some RuleProps.someXs) false {} (fit listedRs someY (some RuleProps.someXs) false {} unfitted).2).1 = .ok [] := by
  refine ⟨?_, ?_⟩
  · unfold Announced
    decide +kernel
  · decide +kernel

/-- When `fit(y)` of a ruleset goes through and leaves some rule, `fit` without features once more does nothing at all. -/
theorem again_none {R : RsEnv} {y y' : List Label} {force force' : Bool} {kw : Rule.Kw} {s s' : RuleSet} {dropped : List Member}
    (hs : Announced s) (h : fit R y none force kw s = (.ok dropped, s')) (hne : s'.rules ≠ []) :
    fit R y' none force' kw s' = (.ok [], s') := by
  have hann : Announced s' := by
    have := Keeps.fit (R := R) y none force kw s hs
    rwa [h] at this
  obtain ⟨k, hk⟩ : ∃ k, s'.ruleType = some k := by
    obtain ⟨m, hm⟩ := List.exists_mem_of_ne_nil _ hne
    exact ⟨_, hann m hm⟩
  have hkw : kw.hasMethod = false := by
    cases hm : kw.hasMethod with
    | false => rfl
    | true =>
      unfold fit at h
      obtain ⟨k, s0, h0, h⟩ := Py.bind_eq_ok h
      rw [hm] at h
      cases h
  have hf : ∀ m ∈ s'.rules, m.rule.fitted = true := by
    rcases fit_ok h with ⟨rfl, -, h | h | ⟨-, h⟩⟩ | ⟨l, s1, hl, ha, rfl, -⟩
    · cases h
    · exact absurd h hne
    · exact h
    · have hl' : ∀ m ∈ l, m.rule.fitted = true := by
        intro m hm
        unfold EachDone at hl
        clear ha hann hs h
        generalize s.rules = l0 at hl
        induction hl with
        | nil => cases hm
        | @cons a b l l' hab _ ih =>
          rcases List.mem_cons.1 hm with rfl | hm
          · by_cases hr : Rule.Runs a.rule none
            · exact (RuleFlagProps.C63_fit hr hab.2).1
            · have e : Rule.fit (R.ofKind a.kind) y none force kw a.rule = (.ok (), m.rule) := hab.2
              rw [fit_skipped hkw hr] at e
              have e : a.rule = m.rule := congrArg Prod.snd e
              rw [← e]
              simpa [Rule.Runs] using hr
          · exact ih hm
      have hsub : ∀ m ∈ s1.rules, m ∈ l := by
        rcases (afterFit_ok (s := { s with rules := l }) ha).2 with ⟨-, hr, -⟩ | ⟨hk, -⟩
        · intro m hm
          rw [hr] at hm
          exact hm
        · intro m hm
          rw [keepRules_bad hk] at hm
          exact (List.mem_filter.1 hm).1
      exact fun m hm => hl' m (hsub m hm)
  unfold fit needType
  have hlen : s'.rules.length ≠ 0 := fun e => hne (List.eq_nil_of_length_eq_zero e)
  rw [Py.bind_ok (a := k) (s' := s') (by rw [Py.bind_ok (Py.get_run s')]; simp only [hk]; rfl), hkw, if_neg (by simp),
    Py.bind_ok (Py.get_run s'), if_neg (by simp), if_neg hlen, if_pos (by simpa using hf)]
  rfl

example : (fit listedRs someY none false {} unfitted).1.toOption.map (·.length) = some 1 ∧
    (fit listedRs someY none false {} unfitted).2.rules.length = 2 := by
  decide +kernel

/-! ## No rule left -/

theorem recomputeSelf_type {R : RsEnv} {s s' : RuleSet} (h : recomputeSelf R s = (.ok (), s')) : s'.ruleType = s.ruleType := by
  unfold recomputeSelf computeSelf at h
  rw [Py.bind_ok (Py.modify_run _ _), Py.bind_ok (Py.get_run _)] at h
  obtain ⟨a, s1, h1, h⟩ := Py.bind_eq_ok h
  simp only [Py.ofExcept_run] at h1
  obtain ⟨-, rfl⟩ := Prod.mk.inj h1
  simp only [Py.modify_run] at h
  cases h
  rfl

theorem recomputeStacked_type {R : RsEnv} {s s' : RuleSet} (h : recomputeStacked R s = (.ok (), s')) : s'.ruleType = s.ruleType := by
  unfold recomputeStacked computeStacked at h
  rw [Py.bind_ok (Py.modify_run _ _), Py.bind_ok (Py.get_run _)] at h
  obtain ⟨a, s1, h1, h⟩ := Py.bind_eq_ok h
  simp only [Py.ofExcept_run] at h1
  obtain ⟨-, rfl⟩ := Prod.mk.inj h1
  simp only [Py.modify_run] at h
  cases h
  rfl

theorem whenSet_type {c : RuleSet → Bool} {m : Py RuleSet Unit} (hm : ∀ {s s'}, m s = (.ok (), s') → s'.ruleType = s.ruleType) {s s' : RuleSet}
    (h : whenSet c m s = (.ok (), s')) : s'.ruleType = s.ruleType := by
  rcases whenSet_ok h with ⟨-, rfl⟩ | ⟨-, h⟩
  · rfl
  · exact hm h

theorem afterFit_type {R : RsEnv} {drops : List (Member × Nat)} {given : Bool} {k : Kind} {s s' : RuleSet} (hk : s.ruleType = some k)
    (h : afterFit R drops given s = (.ok (), s')) : s'.ruleType = some k := by
  unfold afterFit at h
  split at h
  · obtain ⟨_, s1, h1, h⟩ := Py.bind_eq_ok h
    obtain ⟨_, s2, h2, h⟩ := Py.bind_eq_ok h
    rw [whenSet_type recomputeStacked_type h, recomputeSelf_type h2]
    exact (dropRules_type hk h1).1
  · obtain ⟨_, s1, h1, h⟩ := Py.bind_eq_ok h
    rw [whenSet_type recomputeStacked_type h, whenSet_type recomputeSelf_type h1]
    exact hk

/-- The type of a ruleset whose `fit` goes through -/
theorem fit_type {R : RsEnv} {y : List Label} {xs : Option Xs} {force : Bool} {kw : Rule.Kw} {s s' : RuleSet} {dropped : List Member}
    (h : fit R y xs force kw s = (.ok dropped, s')) : kw.hasMethod = false ∧ ∃ k, s'.ruleType = some k := by
  have h0 := h
  unfold fit at h
  obtain ⟨k, s0, h1, h⟩ := Py.bind_eq_ok h
  have hk : s.ruleType = some k := by
    unfold needType at h1
    rw [Py.bind_ok (Py.get_run s)] at h1
    cases hk : s.ruleType with
    | none => simp [hk, Py.throw_run] at h1
    | some k' =>
      simp only [hk, Py.pure_run, Prod.mk.injEq, Except.ok.injEq] at h1
      rw [h1.1]
  refine ⟨?_, k, ?_⟩
  · cases hkw : kw.hasMethod with
    | false => rfl
    | true => rw [hkw, if_pos rfl, Py.throw_run] at h; cases h
  · rcases fit_ok h0 with ⟨rfl, -, -⟩ | ⟨l, s1, -, ha, rfl, -⟩
    · exact hk
    · have := afterFit_type (s := { s with rules := l }) hk ha
      exact this

/-- **C68 (fit of rulesets, no rule left).** When `fit` of a ruleset goes through and leaves no rule, every `fit` afterwards goes through and changes
nothing. -/
theorem C68_set_empty {R R' : RsEnv} {y y' : List Label} {xs xs' : Option Xs} {force force' : Bool} {kw : Rule.Kw} {s s' : RuleSet} {dropped : List Member}
    (h : fit R y xs force kw s = (.ok dropped, s')) (hn : s'.rules = []) : fit R' y' xs' force' kw s' = (.ok [], s') := by
  obtain ⟨hkw, k, hk⟩ := fit_type h
  unfold fit needType
  rw [Py.bind_ok (a := k) (s' := s') (by rw [Py.bind_ok (Py.get_run s')]; simp only [hk]; rfl), hkw, if_neg (by simp),
    Py.bind_ok (Py.get_run s')]
  split
  · rfl
  · rw [if_pos (by rw [hn]; rfl)]
    rfl

/-- **C68 (fit of rulesets).** When `fit(y, xs)` of a ruleset goes through, the same `fit` once more goes through, drops nothing and changes
nothing: rules, activation, stacked activations, features and sizes stay.  Without features see `C68_set_none`. -/
theorem C68_set {R : RsEnv} {y : List Label} {x : Xs} {force : Bool} {kw : Rule.Kw} {s s' : RuleSet} {dropped : List Member}
    (hR : ∀ k, Listed (R.ofKind k)) (hs : Announced s) (hx : x.length ≠ 0)
    (h : fit R y (some x) force kw s = (.ok dropped, s')) :
    ∃ s'', fit R y (some x) force kw s' = (.ok [], s'') ∧ List.Forall₂ SameMember s'.rules s''.rules ∧ s'' = { s' with rules := s''.rules } := by
  by_cases hne : s'.rules = []
  · refine ⟨s', C68_set_empty h hne, ?_, rfl⟩
    rw [hne]
    exact .nil
  · exact again_nonempty hR hs hx h hne

/-- **C68 (fit of rulesets without features).** When `fit(y)` of a ruleset goes through, `fit` without features once more does nothing at all, whatever
the targets. -/
theorem C68_set_none {R : RsEnv} {y y' : List Label} {force force' : Bool} {kw : Rule.Kw} {s s' : RuleSet} {dropped : List Member}
    (hs : Announced s) (h : fit R y none force kw s = (.ok dropped, s')) : fit R y' none force' kw s' = (.ok [], s') := by
  by_cases hne : s'.rules = []
  · exact C68_set_empty h hne
  · exact again_none hs h hne

/-- All rules are dropped by a threshold which none of them meets. -/
example : let R : RsEnv := { someRs with env := { someRs.env with thresholds := some [("coverage", [("min", .num (.fin 2))])] } }
    (fit R someY (some RuleProps.someXs) false {} unfitted).1.toOption.map (·.length) = some 3 ∧
      (fit R someY (some RuleProps.someXs) false {} unfitted).2.rules.length = 0 := by
  decide +kernel

end Verif.AgainSetProps
