import Verif.StackedAgreeLemmas

/-!
# Properties of stacked fit
-/

namespace Verif.RuleSetProps

open Verif Vote Spec RuleSet

/-- **C43 (rules).** With `STACKED_FIT`, each rule of the ruleset is fitted as without: it gets the same activation, it is good or bad
for the same reason, and if it is good its prediction, deviation, sign, z-score and train set size are the same.  All good rules are
kept, all rules returned are bad, and each rule is kept or returned.
Missing: bad rules may be kept (`C43_bad_kept_false`), and what `CanAgree` leaves out: rules with one activated point
(`C43_one_point_false`), classes 'zero' and '' (`C43_class_false`), conditions with the same text (`C43_texts_false`), rules which
are fitted already (`C43_refit_false`).  It is assumed that both fits go through (`C43_raises_false`). -/
theorem C43_rules_partial {R : RsEnv} {k : Kind} {y : List Label} {xs : Option Xs} {kw : Rule.Kw} {s s1 s2 : RuleSet}
    {d1 d2 : List Member} (hc : CanAgree R k y xs s) (hd : DifferentRules R.hasher s.rules) (hne : s.rules ≠ [])
    (h1 : fit R y xs false kw s = (.ok d1, s1)) (h2 : fitStacked R y xs kw s = (.ok d2, s2)) :
    ∃ l1 l2, EachDone R (fun E => Rule.fit E y xs false kw) s.rules l1 ∧ List.Forall₂ (SameMember R) l1 l2 ∧
      s1.rules = l1.filter (fun m => m.rule.good) ∧ (l2.filter fun m => m.rule.good).Sublist s2.rules ∧ s2.rules.Sublist l2 ∧
      (∀ m ∈ d2, m ∈ l2 ∧ m.rule.good = false) ∧ (∀ m ∈ l2, m ∈ s2.rules ∨ m ∈ d2) ∧ s2.trainSize = s1.trainSize := by
  obtain ⟨l1, l2, ns, e1, -, e2, -, e3, e4, e5, e6, e7, -, e8⟩ := fits_rules hc hd hne h1 h2
  exact ⟨l1, l2, e1, e2, e3, e4, e5, e6, e7, e8⟩

/-- **C43 (ruleset).** If no bad rule is kept by the stacked fit, the rulesets are the same after both fits: the same rules in the same
order, the same rules returned (`C43_repeated_false`: not the same list), the same train set size, the same stacked activations if the
ruleset has them, and the same activation if features are given or some rule is dropped (otherwise: `C43_activation_false`). -/
theorem C43_same_partial {R : RsEnv} {k : Kind} {y : List Label} {xs : Option Xs} {kw : Rule.Kw} {s s1 s2 : RuleSet}
    {d1 d2 : List Member} (hc : CanAgree R k y xs s) (hd : DifferentRules R.hasher s.rules) (hne : s.rules ≠ [])
    (h1 : fit R y xs false kw s = (.ok d1, s1)) (h2 : fitStacked R y xs kw s = (.ok d2, s2))
    (hg : ∀ m ∈ s2.rules, m.rule.good = true) :
    List.Forall₂ (SameMember R) s1.rules s2.rules ∧ (∀ c, (∃ m ∈ d1, m.rule.cond = c) ↔ ∃ m ∈ d2, m.rule.cond = c) ∧
      s2.trainSize = s1.trainSize ∧ (s.stack = true → s2.stacked = s1.stacked) ∧ (xs ≠ none ∨ d1 ≠ [] → s2.act = s1.act) := by
  obtain ⟨l1, l2, ns, e1, hb, e2, e3, e4, e5, e6, e7, e8, e9, e10⟩ := fits_rules hc hd hne h1 h2
  have l1' := hb.len1
  have l2' := hb.len2
  have l3' := hb.len3
  have hr2 : s2.rules = l2.filter fun m => m.rule.good := by
    refine List.Sublist.antisymm ?_ e5
    have := e6.filter fun m => m.rule.good
    rwa [List.filter_eq_self.2 hg] at this
  have hrules : List.Forall₂ (SameMember R) s1.rules s2.rules := by
    rw [e4, hr2]
    exact forall2_filter (fun a b h => h.2.good.symm) e2
  have hdrop : ∀ c, (∃ m ∈ d1, m.rule.cond = c) ↔ ∃ m ∈ d2, m.rule.cond = c := by
    intro c
    constructor
    · rintro ⟨m, hm, rfl⟩
      rw [e3, List.mem_filter] at hm
      obtain ⟨j, hj⟩ := List.mem_iff_getElem?.1 hm.1
      obtain ⟨m2, hj2, hs⟩ := forall2_get e2 hj
      refine ⟨m2, ?_, hs.2.cond⟩
      rcases e8 m2 (List.mem_of_getElem? hj2) with h | h
      · have g := hg m2 h
        rw [hs.2.good] at g
        rw [g] at hm
        cases hm.2
      · exact h
    · rintro ⟨m2, hm2, rfl⟩
      obtain ⟨g1, g2⟩ := e7 m2 hm2
      obtain ⟨j, hj2⟩ := List.mem_iff_getElem?.1 g1
      obtain ⟨m, hj⟩ := get_of_length (hb.len1.trans hb.len2.symm) hj2
      obtain ⟨m2', hj2', hs⟩ := forall2_get e2 hj
      rw [hj2] at hj2'
      cases hj2'
      refine ⟨m, ?_, hs.2.cond.symm⟩
      rw [e3, List.mem_filter]
      refine ⟨List.mem_of_getElem? hj, ?_⟩
      rw [← hs.2.good, g2]
      rfl
  have hnil : d1 ≠ [] → d2 ≠ [] := by
    intro h e
    obtain ⟨m, hm⟩ := List.exists_mem_of_ne_nil _ h
    obtain ⟨m2, hm2, -⟩ := (hdrop m.rule.cond).1 ⟨m, hm, rfl⟩
    rw [e] at hm2
    cases hm2
  have hdl : d2 ≠ [] → dropList l2 ns ≠ [] := by
    intro h e
    rw [hb.dropped, e] at h
    exact h rfl
  have hpts2 : ∀ m ∈ l2, HasPoints y.length m := by
    intro m2 hm2
    obtain ⟨j, hj2⟩ := List.mem_iff_getElem?.1 hm2
    have hj' := (List.getElem?_eq_some_iff.1 hj2).1
    obtain ⟨-, -, -, ⟨u, -, g2, g3⟩, -⟩ := hb.same j (s.rules[j]'(by omega)) (l1[j]'(by omega)) m2 (ns[j]'(by omega)) (by simp) (by simp) hj2
      (by simp)
    refine ⟨fun i => u[i]?.getD false, ?_⟩
    rw [g2, arr_vec, g3]
  have hown : s2.rules.map (fun m => (m.rule.cond, m.rule.act)) = s1.rules.map fun m => (m.rule.cond, m.rule.act) :=
    same_own hrules
  have hacts : s2.rules.map (fun m => m.rule.act) = s1.rules.map fun m => m.rule.act := by
    have := congrArg (List.map Prod.snd) hown
    rwa [List.map_map, List.map_map] at this
  have hcols : columnsOf R s2.rules = columnsOf R s1.rules := by
    have := congrArg (List.map fun p : Cond × Option (List Nat) => (R.condStr p.1, p.2.getD [])) hown
    rwa [List.map_map, List.map_map] at this
  have htexts1 : DifferentTexts R l1 := by
    have := eachDone_cond (fun E => Rule.leaves_fit E y xs false kw) e1
    have := congrArg (List.map R.condStr) this
    rw [List.map_map, List.map_map] at this
    have ht := hc.texts
    unfold DifferentTexts at ht ⊢
    exact this ▸ ht
  have htexts : DifferentTexts R s1.rules := by
    rw [e4]
    unfold DifferentTexts
    exact List.Nodup.sublist (List.Sublist.map _ List.filter_sublist) htexts1
  have htexts2 : DifferentTexts R s2.rules := by
    have := congrArg (List.map fun p : Cond × Option (List Nat) => R.condStr p.1) hown
    rw [List.map_map, List.map_map] at this
    unfold DifferentTexts at htexts ⊢
    exact this ▸ htexts
  have hpts : ∀ m ∈ s2.rules, HasPoints y.length m := fun m hm => hpts2 m (e6.subset hm)
  have hpts1 : ∀ m ∈ s1.rules, HasPoints y.length m := by
    intro m hm
    obtain ⟨j, hj⟩ := List.mem_iff_getElem?.1 hm
    obtain ⟨m2, hj2, hs⟩ := forall2_get hrules hj
    obtain ⟨on, h⟩ := hpts m2 (List.mem_of_getElem? hj2)
    exact ⟨on, hs.2.act.symm.trans h⟩
  refine ⟨hrules, hdrop, e10, fun hst => ?_, fun hx => ?_⟩
  · have g2 : s2.stacked = some (columnsOf R s2.rules) := by
      rcases hb.kept with ⟨-, g1, -, g2⟩ | ⟨-, -, -, g2⟩
      · rw [g2 hst, g1]
      · exact evaluateStacked_stored hpts htexts2 (g2 hst)
    rw [g2, hcols]
    symm
    by_cases hcase : d1 ≠ [] ∨ xs.isSome = true ∨ s.stacked = none
    · refine evaluateStacked_stored hpts1 htexts (e9.stacked hst ?_)
      rcases hcase with h | h | h
      · exact .inl (decide_eq_true h)
      · exact .inr (.inl h)
      · exact .inr (.inr h)
    · rw [not_or, not_or, not_not] at hcase
      obtain ⟨c1, c2, c3⟩ := hcase
      have hxs : xs = none := by simpa using c2
      have hk := e9.keptStacked (by simp [c1]) (.inr ⟨by rw [hxs]; rfl, c3⟩)
      rw [hk]
      rcases hc.stacked hxs with h | h
      · exact absurd h c3
      · show s.stacked = _
        rw [h]
        congr 1
        have hl : s1.rules = l1 := by
          rw [e4]
          rw [c1] at e3
          refine List.filter_eq_self.2 fun m hm => ?_
          have := List.filter_eq_nil_iff.1 e3.symm m hm
          simpa using this
        rw [hl]
        unfold columnsOf
        apply List.ext_getElem (by simp [l1'])
        intro j j1 j2
        rw [List.length_map] at j1 j2
        rw [List.getElem_map, List.getElem_map]
        obtain ⟨-, -, g1, ⟨u, g2, g3, -⟩, g4, -⟩ := hb.same j s.rules[j] l1[j] (l2[j]'(by omega)) (ns[j]'(by omega)) (by simp) (by simp) (by simp)
          (by simp)
        rw [hxs] at g2
        have g2 : s.rules[j].rule.act = some (arr u) := g2
        rw [g1, g2, ← g4.act, g3]
  · have g1 : evaluateSelf R none s1.rules = .ok s1.act := e9.recomputed (by
      rcases hx with h | h
      · exact .inr (.inl (Option.isSome_iff_ne_none.2 h))
      · exact .inl (decide_eq_true h))
    have g2 : evaluateSelf R none s2.rules = .ok s2.act := by
      rcases hb.kept with ⟨h', g3, g4, -⟩ | ⟨-, -, g4, -⟩
      · rcases hx with h | h
        · rw [g3]
          exact g4 (Option.isSome_iff_ne_none.2 h)
        · exact absurd h' (hdl (hnil h))
      · exact g4
    rw [evaluateSelf_acts hacts, g1] at g2
    exact (Except.ok.inj g2).symm

/-! ## Examples -/

/-- Targets -/
def numbersOf (l : List Rat) : List Label := l.map fun q => .num (.fin q)

/-- Five rows -/
def fiveXs : Xs := .arr ⟨1, [[.fin 0], [.fin 1], [.fin 2], [.fin 3], [.fin 4]]⟩

/-- The settings of `someRs` for rules of class `k` -/
def kindRs (k : Kind) : RsEnv := { someRs with toSetEnv := VoteProps.someSet k }

/-- The settings of `someRs` without thresholds -/
def freeRs : RsEnv :=
  { someRs with toSetEnv := { VoteProps.someSet .regression with env := { RuleProps.someEnv .regression with thresholds := none } } }

/-- A rule of class `k` with this lower bound and this activation -/
def memberOf (k : Kind) (lo : Rat) (v : List Nat) : Member := ⟨k, VoteProps.voter lo v (.num (.fin 1))⟩

/-- `RuleSet(rules, stack_activation=b)` -/
def started (rules : List Member) (b : Bool) : RuleSet := (RuleSet.init someRs rules true (RuleSet.blank b)).2

/-- Rules of class `k`, of which the third one is too rare on `fiveXs` -/
def threeOf (k : Kind) : RuleSet := started [memberOf k 0 [1, 1, 1], memberOf k 1 [0, 0, 1], memberOf k 3 [0, 0, 1]] true

theorem differentOf (k : Kind) : DifferentRules someRs.hasher (threeOf k).rules := by
  have e : (threeOf k).rules = [memberOf k 0 [1, 1, 1], memberOf k 1 [0, 0, 1], memberOf k 3 [0, 0, 1]] := by
    cases k <;> rfl
  unfold DifferentRules
  rw [e]
  simp only [List.pairwise_cons, List.forall_mem_cons, List.not_mem_nil, false_imp_iff, implies_true, and_true,
    List.Pairwise.nil]
  cases k <;> decide +kernel

/-- Numbers: the third rule is dropped by both fits. -/
example :
    let y := numbersOf [1, 2, 3, 6, 4]
    let p1 := fit someRs y (some fiveXs) false {} (threeOf .regression)
    let p2 := fitStacked someRs y (some fiveXs) {} (threeOf .regression)
    CanAgree someRs .regression y (some fiveXs) (threeOf .regression) ∧ DifferentRules someRs.hasher (threeOf .regression).rules ∧
      (threeOf .regression).rules ≠ [] ∧ p1.1.toOption.map List.length = some 1 ∧ p2.1.toOption.map List.length = some 5 ∧
      p2.2.rules.map (fun m => m.rule.good) = [true, true] ∧
      p2.2.rules.map (fun m => m.rule.prediction) = [.label (.num (.fin (16 / 5))), .label (.num (.fin (15 / 4)))] ∧
      p2.2.stacked = some [("a", [1, 1, 1, 1, 1]), ("b", [0, 1, 1, 1, 1])] := by
  refine ⟨⟨rfl, ?_, ?_, ?_, by unfold DifferentTexts; decide +kernel, (fun e => by cases e), fun _ _ _ _ _ => rfl⟩, differentOf _,
    (fun e => by cases e), by decide +kernel, by decide +kernel, by decide +kernel, by decide +kernel, by decide +kernel⟩
  all_goals
    have e : (threeOf .regression).rules = [memberOf .regression 0 [1, 1, 1], memberOf .regression 1 [0, 0, 1], memberOf .regression 3 [0, 0, 1]] := rfl
    rw [e]
    simp only [List.forall_mem_cons, List.not_mem_nil, false_imp_iff, implies_true, and_true]
  · exact ⟨rfl, rfl, rfl⟩
  · refine ⟨?_, ?_, ?_⟩ <;> exact (show fiveXs.length ≠ 0 by decide)
  · refine ⟨⟨[true, true, true, true, true], ?_, rfl, ?_⟩, ⟨[false, true, true, true, true], ?_, rfl, ?_⟩,
      ⟨[false, false, false, true, true], ?_, rfl, ?_⟩⟩
    all_goals first
      | exact (show Rule.evaluateActivation _ _ _ = _ by decide +kernel)
      | exact (show List.length _ ≠ 1 by decide +kernel)

/-- Classes: the same. -/
example :
    let y := numbersOf [1, 2, 2, 1, 2]
    let p1 := fit (kindRs .classification) y (some fiveXs) false {} (threeOf .classification)
    let p2 := fitStacked (kindRs .classification) y (some fiveXs) {} (threeOf .classification)
    CanAgree (kindRs .classification) .classification y (some fiveXs) (threeOf .classification) ∧
      DifferentRules (kindRs .classification).hasher (threeOf .classification).rules ∧
      p1.1.toOption.map List.length = some 1 ∧ p2.1.toOption.map List.length = some 2 ∧
      p2.2.rules.map (fun m => m.rule.good) = [true, true] ∧
      p2.2.rules.map (fun m => m.rule.prediction) = [.label (.num (.fin 2)), .label (.num (.fin 2))] := by
  refine ⟨⟨rfl, ?_, ?_, ?_, by unfold DifferentTexts; decide +kernel, (fun e => by cases e), fun _ _ _ _ _ => rfl⟩, differentOf _,
    by decide +kernel, by decide +kernel, by decide +kernel, by decide +kernel⟩
  all_goals
    have e : (threeOf .classification).rules =
      [memberOf .classification 0 [1, 1, 1], memberOf .classification 1 [0, 0, 1], memberOf .classification 3 [0, 0, 1]] := rfl
    rw [e]
    simp only [List.forall_mem_cons, List.not_mem_nil, false_imp_iff, implies_true, and_true]
  · exact ⟨rfl, rfl, rfl⟩
  · refine ⟨?_, ?_, ?_⟩ <;> exact (show fiveXs.length ≠ 0 by decide)
  · have hy : ∀ u : List Bool, PlainClasses (kindRs .classification).env.floatStr (activated u (numbersOf [1, 2, 2, 1, 2])) := by
      intro u
      left
      intro c hc
      have : ∀ (u : List Bool) (l : List Rat), c ∈ activated u (numbersOf l) → ∃ q, c = .num (.fin q) := by
        intro u l h
        have h' : c ∈ numbersOf l := by
          unfold activated at h
          obtain ⟨p, hp, rfl⟩ := List.mem_map.1 h
          exact (List.of_mem_zip (List.mem_filter.1 hp).1).2
        obtain ⟨q, -, rfl⟩ := List.mem_map.1 h'
        exact ⟨q, rfl⟩
      exact this u _ hc
    refine ⟨⟨[true, true, true, true, true], ?_, rfl, hy _⟩, ⟨[false, true, true, true, true], ?_, rfl, hy _⟩,
      ⟨[false, false, false, true, true], ?_, rfl, hy _⟩⟩
    all_goals exact (show Rule.evaluateActivation _ _ _ = _ by decide +kernel)

/-! ## Where they differ -/

/-- **C43 is false for a rule with one activated point:** its deviation is 0 without `STACKED_FIT` and NaN with it. -/
theorem C43_one_point_false :
    let s := started [member 4 [1, 1, 1]] false
    let p1 := fit freeRs (numbersOf [1, 2, 3, 6, 4]) (some fiveXs) false {} s
    let p2 := fitStacked freeRs (numbersOf [1, 2, 3, 6, 4]) (some fiveXs) {} s
    p1.1.toOption = some [] ∧ p2.1.toOption = some [] ∧ p1.2.rules.map (fun m => m.rule.std) = [.num (.fin 0)] ∧
      p2.2.rules.map (fun m => m.rule.std) = [.num .nan] :=
  ⟨by decide +kernel, by decide +kernel, by decide +kernel, by decide +kernel⟩

/-- **C43 is false for thresholds on what is not computed by `fit`:** rules which have an activation of too low a coverage are dropped
without `STACKED_FIT`; with it they are seen as bad but are kept and not returned. -/
theorem C43_bad_kept_false :
    let s := started [member 0 [1, 1, 1, 1, 0], member 3 [0, 0, 0, 1, 1]] false
    let p1 := fit someRs (numbersOf [1, 2, 3, 6, 4]) none false {} s
    let p2 := fitStacked someRs (numbersOf [1, 2, 3, 6, 4]) none {} s
    p1.1.toOption.map List.length = some 1 ∧ p1.2.rules.length = 1 ∧ p2.1.toOption = some [] ∧
      p2.2.rules.map (fun m => (m.rule.good, m.rule.badBecause)) = [(true, none), (false, some "coverage")] :=
  ⟨by decide +kernel, by decide +kernel, by decide +kernel, by decide +kernel⟩

/-- **C43 is false for the list which is returned:** a rule which is bad from the start is in it once for each attribute. -/
theorem C43_repeated_false :
    let y := numbersOf [1, 2, 3, 6, 4]
    (fit someRs y (some fiveXs) false {} (threeOf .regression)).1.toOption.map (fun d => d.map fun m => m.rule.cond.bmins) =
        some [some [.fin 3]] ∧
      (fitStacked someRs y (some fiveXs) {} (threeOf .regression)).1.toOption.map (fun d => d.map fun m => m.rule.cond.bmins) =
        some (List.replicate 5 (some [.fin 3])) :=
  ⟨by decide +kernel, by decide +kernel⟩

/-- **C43 is false for conditions with the same text:** the first rule gets the figures of the second one, then `IndexError` is
raised. -/
theorem C43_texts_false :
    let R : RsEnv := { freeRs with condStr := fun _ => "a" }
    let s := started [member 0 [1, 1, 1, 1, 1], member 1 [0, 1, 1, 1, 1]] false
    let p1 := fit R (numbersOf [1, 2, 3, 6, 4]) (some fiveXs) false {} s
    let p2 := fitStacked R (numbersOf [1, 2, 3, 6, 4]) (some fiveXs) {} s
    p1.1.toOption = some [] ∧ p2.1.toOption = none ∧ p2.1.map List.length = .error .indexError ∧
      p1.2.rules.map (fun m => m.rule.prediction) = [.label (.num (.fin (16 / 5))), .label (.num (.fin (15 / 4)))] ∧
      p2.2.rules.map (fun m => m.rule.prediction) = [.label (.num (.fin (15 / 4))), .label (.num (.fin 1))] :=
  ⟨by decide +kernel, by decide +kernel, by decide +kernel, by decide +kernel, by decide +kernel⟩

/-- **C43 is false for the class 'zero':** with `STACKED_FIT` it becomes the number 0. -/
theorem C43_class_false :
    let R := kindRs .classification
    let s := started [memberOf .classification 0 [1, 1, 1]] false
    let y := List.replicate 5 (Label.text "zero")
    (fit R y (some fiveXs) false {} s).2.rules.map (fun m => m.rule.getPrediction (R.ofKind .classification)) =
        [.ok (some (.text "zero"))] ∧
      (fitStacked R y (some fiveXs) {} s).2.rules.map (fun m => m.rule.getPrediction (R.ofKind .classification)) =
        [.ok (some (.num (.fin 0)))] :=
  ⟨by decide +kernel, by decide +kernel⟩

/-- **C43 is false for classification rules without activated point:** without `STACKED_FIT` they are dropped for their coverage, with
it `fit` raises `IndexError`, and no rule is fitted. -/
theorem C43_raises_false :
    let R := kindRs .classification
    let s := started [memberOf .classification 0 [1, 1, 1], memberOf .classification 5 [0, 0, 1]] false
    let p1 := fit R (numbersOf [1, 2, 2, 1, 2]) (some fiveXs) false {} s
    let p2 := fitStacked R (numbersOf [1, 2, 2, 1, 2]) (some fiveXs) {} s
    p1.1.toOption.map (fun d => d.map fun m => m.rule.cond.bmins) = some [some [.fin 5]] ∧
      p2.1.map List.length = .error .indexError ∧ p2.2.rules.map (fun m => m.rule.fitted) = [false, false] :=
  ⟨by decide +kernel, by decide +kernel, by decide +kernel⟩

/-- **C43 is false for rules which are fitted already, when no features are given:** without `STACKED_FIT` they stay as they are, with
it they are fitted on the new targets. -/
theorem C43_refit_false :
    let known : Member := ⟨.regression, { (member 0 [1, 1, 1, 1, 1]).rule with fitted := true }⟩
    let s := started [known, member 1 [0, 1, 1, 1, 1]] false
    let p1 := fit freeRs (numbersOf [1, 2, 3, 6, 4]) none false {} s
    let p2 := fitStacked freeRs (numbersOf [1, 2, 3, 6, 4]) none {} s
    p1.1.toOption = some [] ∧ p2.1.toOption = some [] ∧
      p1.2.rules.map (fun m => m.rule.prediction) = [.label (.num (.fin 1)), .label (.num (.fin (15 / 4)))] ∧
      p2.2.rules.map (fun m => m.rule.prediction) = [.label (.num (.fin (16 / 5))), .label (.num (.fin (15 / 4)))] :=
  ⟨by decide +kernel, by decide +kernel, by decide +kernel, by decide +kernel⟩

/-- **C43 is false for the activation of the ruleset, when no features are given and nothing is dropped:** without `STACKED_FIT` it is
computed if it was not yet, with it it is not, and there is no coverage. -/
theorem C43_activation_false :
    let s := (RuleSet.append freeRs (member 0 [1, 1, 1, 1, 0]) false (RuleSet.blank false)).2
    let p1 := fit freeRs (numbersOf [1, 2, 3, 6, 4]) none false {} s
    let p2 := fitStacked freeRs (numbersOf [1, 2, 3, 6, 4]) none {} s
    p1.1.toOption = some [] ∧ p2.1.toOption = some [] ∧ p1.2.act = some [1, 1, 1, 1, 0] ∧ p2.2.act = none ∧
      p1.2.rulesetCoverage = .num (.fin (4 / 5)) ∧ p2.2.rulesetCoverage = .none :=
  ⟨by decide +kernel, by decide +kernel, by decide +kernel, by decide +kernel, by decide +kernel, by decide +kernel⟩

/-- **C43 is false for the settings of the ruleset when `fit` raises:** with `STACKED_FIT` the ruleset is left with
`stack_activation = True`. -/
theorem C43_setting_false :
    let other : Member := ⟨.regression, { (member 1 [1, 1, 1]).rule with
      cond := { (member 1 [1, 1, 1]).rule.cond with indexes := some [7] } }⟩
    let s := started [member 0 [1, 1, 1], other] false
    let p1 := fit freeRs (numbersOf [1, 2, 3, 6, 4]) (some fiveXs) false {} s
    let p2 := fitStacked freeRs (numbersOf [1, 2, 3, 6, 4]) (some fiveXs) {} s
    p1.1.map List.length = .error .indexError ∧ p2.1.map List.length = .error .indexError ∧ s.stack = false ∧ p1.2.stack = false ∧
      p2.2.stack = true :=
  ⟨by decide +kernel, by decide +kernel, by decide +kernel, by decide +kernel, by decide +kernel⟩

end Verif.RuleSetProps
