import Verif.RsHashLemmas

/-!
# Properties of the hashes of rules and rulesets (C53)
-/

namespace Verif.RuleSetProps

open Verif Spec Vote RuleSet

/-! ## C53 -/

/-- **C53 (rules).** Rules which require the same of the same features are equal and have the same hash, whatever the hash
functions and their predictions and activations. -/
theorem C53_rules (H : Cond.Hasher) {a b : Member} (ha : Reach a.rule.cond) (hb : Reach b.rule.cond) (h : SameDemands a b) :
    Cond.eq H a.rule.cond b.rule.cond = .ok true ∧ ∃ k, ruleHash H a = .ok k ∧ ruleHash H b = .ok k := by
  obtain ⟨fs, gs, hfs, hgs, hsame⟩ := h
  obtain ⟨fs', hf⟩ := Cond.reach_regular ha
  obtain ⟨gs', hg⟩ := Cond.reach_regular hb
  have := Cond.Shows.unique hfs hf.shows
  subst this
  have := Cond.Shows.unique hgs hg.shows
  subst this
  have hk := sameKey_of_same H hf.names_nodup hg.names_nodup hfs hgs hsame
  refine ⟨hk.eq, ?_⟩
  obtain ⟨k, h1, h2⟩ := hk
  unfold setKey at h1 h2
  simp only [bind, Except.bind] at h1 h2
  split at h1
  · cases h1
  rename_i x hx
  split at h1
  · cases h1
  split at h2
  · cases h2
  rename_i y hy
  split at h2
  · cases h2
  cases h1
  cases h2
  exact ⟨x, hx, hy⟩

/-- **C53 (rulesets).** If each rule of a ruleset requires the same as some rule of the other, and conversely, the rulesets are
equal and have the same hash: order, repetitions, predictions and activations do not matter. -/
theorem C53_rulesets {R : RsEnv} {s o : RuleSet} (hs : ∀ m ∈ s.rules, Reach m.rule.cond) (ho : ∀ m ∈ o.rules, Reach m.rule.cond)
    (h1 : ∀ m ∈ s.rules, ∃ m' ∈ o.rules, SameDemands m m') (h2 : ∀ m' ∈ o.rules, ∃ m ∈ s.rules, SameDemands m m') :
    RuleSet.eq R s o = .ok true ∧ ∃ k, RuleSet.hash R.hasher s = .ok k ∧ RuleSet.hash R.hasher o = .ok k := by
  refine ⟨C39_equal hs ho h1 h2, hash_same _ hs ho ?_⟩
  intro n lo hi
  constructor
  · rintro ⟨m, hm, fs, hfs, hf⟩
    obtain ⟨m', hm', fs', gs, hfs', hgs, hsame⟩ := h1 m hm
    have := Cond.Shows.unique hfs hfs'
    subst this
    exact ⟨m', hm', gs, hgs, (hsame n lo hi).1 hf⟩
  · rintro ⟨m, hm, fs, hfs, hf⟩
    obtain ⟨m', hm', fs', gs, hfs', hgs, hsame⟩ := h2 m hm
    have := Cond.Shows.unique hfs hgs
    subst this
    exact ⟨m', hm', fs', hfs', (hsame n lo hi).2 hf⟩

/-- **C53 (equal rulesets have equal hashes), partial.** This holds unless the hashes of what the rules require collide.
Missing: they can, see `C53_contract_false`. -/
theorem C53_contract_partial {R : RsEnv} {s o : RuleSet} (hs : ∀ m ∈ s.rules, Reach m.rule.cond)
    (ho : ∀ m ∈ o.rules, Reach m.rule.cond) (hc : ∀ m ∈ s.rules, ∀ m' ∈ o.rules, NoCollision R.hasher m m')
    (h : RuleSet.eq R s o = .ok true) : ∃ k, RuleSet.hash R.hasher s = .ok k ∧ RuleSet.hash R.hasher o = .ok k := by
  obtain ⟨h1, h2⟩ := C39_only_if_partial hs ho hc h
  exact (C53_rulesets (R := R) hs ho h1 h2).2

/-- **C53 (equal rules have equal hashes), partial.** Likewise. -/
theorem C53_rule_contract_partial (H : Cond.Hasher) {a b : Member} (ha : Reach a.rule.cond) (hb : Reach b.rule.cond)
    (hn : NoCollision H a b) (h : Cond.eq H a.rule.cond b.rule.cond = .ok true) :
    ∃ k, ruleHash H a = .ok k ∧ ruleHash H b = .ok k := by
  obtain ⟨fs, hf⟩ := Cond.reach_regular ha
  obtain ⟨gs, hg⟩ := Cond.reach_regular hb
  obtain ⟨n1, n2⟩ := hn fs gs hf.shows hg.shows
  exact (C53_rules H ha hb
    ⟨fs, gs, hf.shows, hg.shows, ConditionProps.C15_only_if_partial ha hb hf.shows hg.shows _ h n1 n2⟩).2

/-- The hypotheses are met by `twoRules` and `otherTwo` (the example of C39), which then have the same hash; another ruleset has
another one. -/
example : (∀ m ∈ twoRules.rules, Reach m.rule.cond) ∧ (∀ m ∈ otherTwo.rules, Reach m.rule.cond) ∧
    (∀ m ∈ twoRules.rules, ∃ m' ∈ otherTwo.rules, SameDemands m m') ∧
    RuleSet.hash someRs.hasher twoRules = RuleSet.hash someRs.hasher otherTwo ∧
    RuleSet.hash someRs.hasher twoRules ≠ RuleSet.hash someRs.hasher threeRules := by
  refine ⟨?_, ?_, ?_, by decide +kernel, by decide +kernel⟩ <;>
    simp only [twoRules_rules, otherTwo, List.forall_mem_cons, List.not_mem_nil, false_imp_iff, implies_true, and_true, List.exists_mem_cons_iff,
      false_and, exists_false, or_false]
  · exact ⟨member_reach 0 (by simp) _ _, member_reach 1 (by simp) _ _⟩
  · exact ⟨member_reach 1 (by simp) _ _, member_reach 0 (by simp) _ _, member_reach 1 (by simp) _ _⟩
  · exact ⟨.inr (.inl (voter_same ..)), .inl (voter_same ..)⟩

/-- Rules with lower bounds -1 and -2, which have the same hashes and are equal -/
def collided : RuleSet := { blank false with rules := [member (-1) [1, 0, 0], member (-2) [1, 1, 0]] }

/-- One of them -/
def single : RuleSet := { blank false with rules := [member (-1) [1, 0, 0]] }

/-- **C53 is false**: a ruleset of two rules which are equal by collision of -1 and -2 is equal to the ruleset of one of them; its
hash is made of one element more, whatever the hash functions, and differs for instance for the ones of `someRs`. -/
theorem C53_contract_false :
    (∀ R : RsEnv, RuleSet.eq R collided single = .ok true) ∧
    (∀ H : Cond.Hasher, ∃ x y, RuleSet.hash H collided = .ok (H.frozenset [x, y, y]) ∧
      RuleSet.hash H single = .ok (H.frozenset [x, y])) ∧
    RuleSet.hash someRs.hasher collided ≠ RuleSet.hash someRs.hasher single := by
  have g1 : ∀ H : Cond.Hasher, H.num (.fin (-1)) = -2 := fun H => by
    have h1 : ((-1 : Rat)).den = 1 := by decide +kernel
    have h2 : ((-1 : Rat)).num.sign * ((((-1 : Rat)).num.natAbs % (2 ^ 61 - 1) : Nat) : Int) = -1 := by decide +kernel
    simp only [Cond.Hasher.num, h1, if_true, h2]
  have g2 : ∀ H : Cond.Hasher, H.num (.fin (-2)) = -2 := fun H => by
    have h1 : ((-2 : Rat)).den = 1 := by decide +kernel
    have h2 : ((-2 : Rat)).num.sign * ((((-2 : Rat)).num.natAbs % (2 ^ 61 - 1) : Nat) : Int) = -2 := by decide +kernel
    simp only [Cond.Hasher.num, h1, if_true, h2]
    decide
  have t1 : ∀ v, (member (-1) v).rule.cond.toHash = .ok [("a", .fin (-1), .fin 9)] := fun v => rfl
  have t2 : ∀ v, (member (-2) v).rule.cond.toHash = .ok [("a", .fin (-2), .fin 9)] := fun v => rfl
  have d1 : [(("a", .fin (-1), .fin 9) : String × Num × Num)].dedup = [("a", .fin (-1), .fin 9)] := by decide +kernel
  have d2 : [(("a", .fin (-2), .fin 9) : String × Num × Num)].dedup = [("a", .fin (-2), .fin 9)] := by decide +kernel
  have d3 : [(("a", .fin (-1), .fin 9) : String × Num × Num), ("a", .fin (-2), .fin 9)].dedup =
      [("a", .fin (-1), .fin 9), ("a", .fin (-2), .fin 9)] := by decide +kernel
  refine ⟨fun R => ?_, fun H => ⟨H.str "rs", H.tuple [H.str "a", -2, H.num (.fin 9)], ?_, ?_⟩, by decide +kernel⟩
  · simp [RuleSet.eq, collided, single, setKey, ruleHash, Cond.hash, t1, t2, d1, d2, bind, Except.bind, pure, Except.pure, g1, g2]
  · simp [RuleSet.hash, collided, triples, t1, t2, d3, bind, Except.bind, g1, g2]
  · simp [RuleSet.hash, single, triples, t1, d1, bind, Except.bind, g1]

/-- **C53 (what the hash looks at).** The hash of a ruleset depends only on the requirements found in its rules, not on which rule
makes them. -/
theorem C53_flattened (H : Cond.Hasher) {s o : RuleSet} (hs : ∀ m ∈ s.rules, Reach m.rule.cond)
    (ho : ∀ m ∈ o.rules, Reach m.rule.cond)
    (h : ∀ n lo hi, (∃ m ∈ s.rules, ∃ fs, Shows m.rule.cond fs ∧ ∃ f ∈ fs, f.name = n ∧ f.lo = lo ∧ f.hi = hi) ↔
      ∃ m ∈ o.rules, ∃ fs, Shows m.rule.cond fs ∧ ∃ f ∈ fs, f.name = n ∧ f.lo = lo ∧ f.hi = hi) :
    ∃ k, RuleSet.hash H s = .ok k ∧ RuleSet.hash H o = .ok k :=
  hash_same H hs ho h

/-- A rule which requires a in [0, 9] and b in [1, 9] -/
def both : Member :=
  ⟨.regression, { VoteProps.voter 0 [1, 0, 0] (.num (.fin 1)) with
    cond := { indexes := some [0, 1], bmins := some [.fin 0, .fin 1], bmaxs := some [.fin 9, .fin 9], names := some ["a", "b"], impossible := false } }⟩

/-- A rule for each -/
def onlyB : Member :=
  ⟨.regression, { VoteProps.voter 0 [1, 0, 0] (.num (.fin 1)) with
    cond := { indexes := some [1], bmins := some [.fin 1], bmaxs := some [.fin 9], names := some ["b"], impossible := false } }⟩

/-- Different rulesets with the same hash, for this reason -/
example : (∀ H : Cond.Hasher, ∃ k, RuleSet.hash H { blank false with rules := [both] } = .ok k ∧
      RuleSet.hash H { blank false with rules := [member 0 [1, 0, 0], onlyB] } = .ok k) ∧
    RuleSet.eq someRs { blank false with rules := [both] } { blank false with rules := [member 0 [1, 0, 0], onlyB] } = .ok false :=
  ⟨fun _ => ⟨_, rfl, rfl⟩, by decide +kernel⟩

end Verif.RuleSetProps
