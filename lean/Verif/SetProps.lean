import Verif.SetLemmas
import Verif.RuleSetProps

/-!
# Properties of `==`, of the check of duplicates and of slices of rulesets
-/

namespace Verif.RuleSetProps

open Verif Spec Vote RuleSet

/-! ## C39 -/

/-- Two rules which require the same of the same features -/
def SameDemands (a b : Member) : Prop :=
  ∃ fs gs, Shows a.rule.cond fs ∧ Shows b.rule.cond gs ∧ SameRequirements fs gs

/-- The hashes of what two rules require collide only if they require the same. -/
def NoCollision (H : Cond.Hasher) (a b : Member) : Prop :=
  ∀ fs gs, Shows a.rule.cond fs → Shows b.rule.cond gs →
    (∀ f ∈ fs, ∀ g ∈ gs, H.tuple [H.str f.name, H.num f.lo, H.num f.hi] = H.tuple [H.str g.name, H.num g.lo, H.num g.hi] →
      f.name = g.name ∧ f.lo = g.lo ∧ f.hi = g.hi) ∧
    (∀ x y, x = H.str "c" :: (fs.map fun f => H.tuple [H.str f.name, H.num f.lo, H.num f.hi]) →
      y = H.str "c" :: (gs.map fun g => H.tuple [H.str g.name, H.num g.lo, H.num g.hi]) →
      H.frozenset x = H.frozenset y → x.Perm y)

/-- **C39 (equal).** If each rule of a ruleset requires the same of the same features as some rule of the other, and conversely,
the rulesets are equal: order, repetitions, predictions and activations do not matter. -/
theorem C39_equal {R : RsEnv} {s o : RuleSet} (hs : ∀ m ∈ s.rules, Reach m.rule.cond) (ho : ∀ m ∈ o.rules, Reach m.rule.cond)
    (h1 : ∀ m ∈ s.rules, ∃ m' ∈ o.rules, SameDemands m m') (h2 : ∀ m' ∈ o.rules, ∃ m ∈ s.rules, SameDemands m m') :
    RuleSet.eq R s o = .ok true := by
  have key : ∀ {m m' : Member}, Reach m.rule.cond → Reach m'.rule.cond → SameDemands m m' → SameKey R.hasher m m' := by
    rintro m m' hm hm' ⟨fs, gs, hfs, hgs, hsame⟩
    obtain ⟨fs', hf⟩ := Cond.reach_regular hm
    obtain ⟨gs', hg⟩ := Cond.reach_regular hm'
    have := Cond.Shows.unique hfs hf.shows
    subst this
    have := Cond.Shows.unique hgs hg.shows
    subst this
    exact sameKey_of_same _ hf.names_nodup hg.names_nodup hfs hgs hsame
  have k1 : ∀ m ∈ s.rules, ∃ m' ∈ o.rules, SameKey R.hasher m m' := fun m hm => by
    obtain ⟨m', hm', h⟩ := h1 m hm
    exact ⟨m', hm', key (hs m hm) (ho m' hm') h⟩
  have k2 : ∀ m' ∈ o.rules, ∃ m ∈ s.rules, SameKey R.hasher m m' := fun m' hm' => by
    obtain ⟨m, hm, h⟩ := h2 m' hm'
    exact ⟨m, hm, key (hs m hm) (ho m' hm') h⟩
  obtain ⟨b, hb⟩ := eq_succeeds (R := R) (s := s) (o := o)
    (fun m hm => by obtain ⟨_, _, k, hk, _⟩ := k1 m hm; exact ⟨k, hk⟩)
    (fun m hm => by obtain ⟨_, _, k, _, hk⟩ := k2 m hm; exact ⟨k, hk⟩)
  rw [hb, (eq_keys hb).2 ⟨k1, k2⟩]

/-- **C39 (only then), partial.** If two rulesets are equal, and the hashes of what their rules require do not collide, each rule
of one requires the same of the same features as some rule of the other.
Missing: hashes can collide (`C39_collision_false`). -/
theorem C39_only_if_partial {R : RsEnv} {s o : RuleSet} (hs : ∀ m ∈ s.rules, Reach m.rule.cond)
    (ho : ∀ m ∈ o.rules, Reach m.rule.cond) (hc : ∀ m ∈ s.rules, ∀ m' ∈ o.rules, NoCollision R.hasher m m')
    (h : RuleSet.eq R s o = .ok true) :
    (∀ m ∈ s.rules, ∃ m' ∈ o.rules, SameDemands m m') ∧ ∀ m' ∈ o.rules, ∃ m ∈ s.rules, SameDemands m m' := by
  have key : ∀ {m m' : Member}, Reach m.rule.cond → Reach m'.rule.cond → NoCollision R.hasher m m' → SameKey R.hasher m m' →
      SameDemands m m' := by
    intro m m' hm hm' hn hk
    obtain ⟨fs, hf⟩ := Cond.reach_regular hm
    obtain ⟨gs, hg⟩ := Cond.reach_regular hm'
    obtain ⟨n1, n2⟩ := hn fs gs hf.shows hg.shows
    exact ⟨fs, gs, hf.shows, hg.shows, ConditionProps.C15_only_if_partial hm hm' hf.shows hg.shows _ hk.eq n1 n2⟩
  obtain ⟨k1, k2⟩ := (eq_keys h).1 rfl
  constructor
  · intro m hm
    obtain ⟨m', hm', k⟩ := k1 m hm
    exact ⟨m', hm', key (hs m hm) (ho m' hm') (hc m hm m' hm') k⟩
  · intro m' hm'
    obtain ⟨m, hm, k⟩ := k2 m' hm'
    exact ⟨m, hm, key (hs m hm) (ho m' hm') (hc m hm m' hm') k⟩

/-- **C39 (an equivalence).** Where comparisons succeed, a ruleset is equal to itself, the sides of `==` can be exchanged, and
rulesets equal to the same one are equal. -/
theorem C39_equivalence {R : RsEnv} {s o t : RuleSet} :
    (∀ b, RuleSet.eq R s s = .ok b → b = true) ∧
    (∀ b, RuleSet.eq R s o = .ok b → RuleSet.eq R o s = .ok b) ∧
    (RuleSet.eq R s o = .ok true → RuleSet.eq R o t = .ok true → RuleSet.eq R s t = .ok true) := by
  have hkeys : ∀ {s o b}, RuleSet.eq R s o = .ok b →
      (∀ m ∈ s.rules, ∃ k, setKey R.hasher m = .ok k) ∧ ∀ m ∈ o.rules, ∃ k, setKey R.hasher m = .ok k := by
    intro s o b h
    unfold RuleSet.eq at h
    simp only [bind, Except.bind] at h
    split at h
    · cases h
    rename_i ks hs
    split at h
    · cases h
    rename_i ko ho
    constructor
    · intro m hm
      obtain ⟨k, -, e⟩ := forall₂_exists_left (mapM_eq_ok hs) hm
      exact ⟨k, e⟩
    · intro m hm
      obtain ⟨k, -, e⟩ := forall₂_exists_left (mapM_eq_ok ho) hm
      exact ⟨k, e⟩
  have trans : ∀ {a b c : Member}, SameKey R.hasher a b → SameKey R.hasher b c → SameKey R.hasher a c := by
    rintro a b c ⟨k, h1, h2⟩ ⟨k', h3, h4⟩
    rw [h2] at h3
    cases h3
    exact ⟨k, h1, h4⟩
  refine ⟨?_, ?_, ?_⟩
  · intro b h
    have : ∀ m ∈ s.rules, ∃ m' ∈ s.rules, SameKey R.hasher m m' := fun m hm => by
      obtain ⟨k, hk⟩ := (hkeys h).1 m hm
      exact ⟨m, hm, k, hk, hk⟩
    have this' : ∀ m' ∈ s.rules, ∃ m ∈ s.rules, SameKey R.hasher m m' := fun m hm => by
      obtain ⟨k, hk⟩ := (hkeys h).1 m hm
      exact ⟨m, hm, k, hk, hk⟩
    exact (eq_keys h).2 ⟨this, this'⟩
  · intro b h
    obtain ⟨b', h'⟩ := eq_succeeds (R := R) (hkeys h).2 (hkeys h).1
    have : b' = true ↔ b = true := by
      rw [eq_keys h, eq_keys h']
      constructor <;> rintro ⟨h1, h2⟩ <;>
        exact ⟨fun m hm => (h2 m hm).imp fun m' h => ⟨h.1, h.2.symm⟩, fun m hm => (h1 m hm).imp fun m' h => ⟨h.1, h.2.symm⟩⟩
    rw [h', Bool.eq_iff_iff.2 this]
  · intro h h'
    obtain ⟨b, hb⟩ := eq_succeeds (R := R) (hkeys h).1 (hkeys h').2
    obtain ⟨k1, k2⟩ := (eq_keys h).1 rfl
    obtain ⟨k3, k4⟩ := (eq_keys h').1 rfl
    rw [hb, (eq_keys hb).2 ⟨?_, ?_⟩]
    · intro m hm
      obtain ⟨m1, hm1, e1⟩ := k1 m hm
      obtain ⟨m2, hm2, e2⟩ := k3 m1 hm1
      exact ⟨m2, hm2, trans e1 e2⟩
    · intro m hm
      obtain ⟨m1, hm1, e1⟩ := k4 m hm
      obtain ⟨m2, hm2, e2⟩ := k2 m1 hm1
      exact ⟨m2, hm2, trans e2 e1⟩

/-- Rules in another order, one of them twice, with other predictions and activations -/
def otherTwo : RuleSet :=
  { blank false with rules := [⟨.regression, VoteProps.voter 1 [1, 1, 1] (.num (.fin 7))⟩, member 0 [0, 0, 0], member 1 [0, 0, 1]] }

theorem member_reach : ∀ lo ∈ [(0 : Rat), 1, 2], ∀ v l, Reach (VoteProps.voter lo v l).cond := by
  intro lo hlo v l
  simp only [List.mem_cons, List.not_mem_nil, or_false] at hlo
  rcases hlo with rfl | rfl | rfl
  · exact .init (by_ := "index") (i := some [.int 0]) (lo := some [.int 0]) (hi := some [.int 9]) (n := some [.str "a"]) (s := true)
      (show Cond.init _ _ _ _ _ _ _ = .ok { indexes := some [0], bmins := some [.fin 0], bmaxs := some [.fin 9], names := some ["a"], impossible := false } by decide +kernel)
  · exact .init (by_ := "index") (i := some [.int 0]) (lo := some [.int 1]) (hi := some [.int 9]) (n := some [.str "a"]) (s := true)
      (show Cond.init _ _ _ _ _ _ _ = .ok { indexes := some [0], bmins := some [.fin 1], bmaxs := some [.fin 9], names := some ["a"], impossible := false } by decide +kernel)
  · exact .init (by_ := "index") (i := some [.int 0]) (lo := some [.int 2]) (hi := some [.int 9]) (n := some [.str "a"]) (s := true)
      (show Cond.init _ _ _ _ _ _ _ = .ok { indexes := some [0], bmins := some [.fin 2], bmaxs := some [.fin 9], names := some ["a"], impossible := false } by decide +kernel)

theorem voter_same (lo : Rat) (v v' : List Nat) (l l' : Label) (k k' : Kind) :
    SameDemands ⟨k, VoteProps.voter lo v l⟩ ⟨k', VoteProps.voter lo v' l'⟩ :=
  ⟨[⟨"a", 0, .fin lo, .fin 9⟩], [⟨"a", 0, .fin lo, .fin 9⟩], ⟨rfl, rfl, rfl, rfl⟩, ⟨rfl, rfl, rfl, rfl⟩, fun _ _ _ => Iff.rfl⟩

theorem twoRules_rules : twoRules.rules = [member 0 [1, 0, 0], member 1 [0, 0, 1]] := rfl

example : (∀ m ∈ twoRules.rules, Reach m.rule.cond) ∧ (∀ m ∈ otherTwo.rules, Reach m.rule.cond) ∧
    (∀ m ∈ twoRules.rules, ∃ m' ∈ otherTwo.rules, SameDemands m m') ∧
    (∀ m' ∈ otherTwo.rules, ∃ m ∈ twoRules.rules, SameDemands m m') ∧
    RuleSet.eq someRs twoRules otherTwo = .ok true ∧ RuleSet.eq someRs otherTwo threeRules = .ok false := by
  refine ⟨?_, ?_, ?_, ?_, by decide +kernel, by decide +kernel⟩ <;>
    simp only [twoRules_rules, otherTwo, List.forall_mem_cons, List.not_mem_nil, false_imp_iff, implies_true, and_true, List.exists_mem_cons_iff,
      false_and, exists_false, or_false]
  · exact ⟨member_reach 0 (by simp) _ _, member_reach 1 (by simp) _ _⟩
  · exact ⟨member_reach 1 (by simp) _ _, member_reach 0 (by simp) _ _, member_reach 1 (by simp) _ _⟩
  · exact ⟨.inr (.inl (voter_same ..)), .inl (voter_same ..)⟩
  · exact ⟨.inr (voter_same ..), .inl (voter_same ..), .inr (voter_same ..)⟩

/-- Hashes which do not collide -/
example : NoCollision someRs.hasher (member 0 [1, 0, 0]) (member 1 [0, 0, 1]) := by
  intro fs gs hf hg
  have e1 := Cond.Shows.unique hf (gs := [⟨"a", 0, .fin 0, .fin 9⟩]) ⟨rfl, rfl, rfl, rfl⟩
  have e2 := Cond.Shows.unique hg (gs := [⟨"a", 0, .fin 1, .fin 9⟩]) ⟨rfl, rfl, rfl, rfl⟩
  subst e1 e2
  constructor
  · decide +kernel
  · rintro x y rfl rfl
    decide +kernel

/-- **C39 is false of hashes which collide:** -1 and -2 have the same hash, so that different rulesets are equal. -/
theorem C39_collision_false :
    let s := (init someRs [member (-1) [1, 0, 0]] true (blank false)).2
    let o := (init someRs [member (-2) [0, 0, 1]] true (blank false)).2
    RuleSet.eq someRs s o = .ok true ∧ s.rules.map (fun m => m.rule.cond.bmins) = [some [.fin (-1)]] ∧
      o.rules.map (fun m => m.rule.cond.bmins) = [some [.fin (-2)]] := by
  decide +kernel

/-! ## C40 -/

/-- **C40 (accepted).** With `CHECK_DUPLICATED`, a ruleset which has been made has no two rules with the same features, bounds and
text of prediction. -/
theorem C40_accepted {R : RsEnv} {rules : List Member} {compute stack : Bool} {s : RuleSet} (hT : TextsTellApart R)
    (hR : R.checkDuplicated = true) (h : make R rules compute stack = .ok s) :
    s.rules.Pairwise fun a b => ¬ SameRule R (decide (0 < s.names.length)) a b := by
  have hc := (make_ok h).check hR
  unfold checkDuplicatedRules at hc
  simp only [bind, Except.bind] at hc
  split at hc
  · cases hc
  rename_i l hl
  split at hc
  · rename_i hn
    exact (nodup_texts hT (mapM_eq_ok hl)).1 hn
  · cases hc

/-- **C40 (exactly).** Let a list of rules whose predictions can be read make a ruleset when `CHECK_DUPLICATED` is off.  When it
is on, the same ruleset is made if no two of its rules have the same features, bounds and text of prediction, and `ValueError` is
raised otherwise. -/
theorem C40_exactly {R : RsEnv} {rules : List Member} {compute stack : Bool} {s : RuleSet} (hT : TextsTellApart R)
    (h : make { R with checkDuplicated := false } rules compute stack = .ok s)
    (hp : ∀ m ∈ s.rules, ∃ p, m.rule.getPrediction (R.ofKind m.kind) = .ok p) :
    (s.rules.Pairwise (fun a b => ¬ SameRule R (decide (0 < s.names.length)) a b) →
      make { R with checkDuplicated := true } rules compute stack = .ok s) ∧
    (¬ s.rules.Pairwise (fun a b => ¬ SameRule R (decide (0 < s.names.length)) a b) →
      make { R with checkDuplicated := true } rules compute stack = .error .valueError) := by
  obtain ⟨l, hl⟩ := mapM_exists (f := ruleText R (decide (s.names.length > 0))) (l := s.rules) fun m hm => by
    obtain ⟨p, e⟩ := hp m hm
    unfold ruleText
    rw [e]
    exact ⟨_, rfl⟩
  have hn := nodup_texts hT (mapM_eq_ok hl)
  rw [make_checked, h]
  simp only [bind, Except.bind, checkDuplicatedRules, hl]
  constructor
  · intro hpw
    rw [if_pos (hn.2 hpw)]
    rfl
  · intro hpw
    rw [if_neg fun e => hpw (hn.1 e)]

/-- Accepted with different rules, refused with a rule which differs in its activation only -/
example : TextsTellApart { tellRs with checkDuplicated := true } ∧
    (∃ s, make { tellRs with checkDuplicated := true } [member 0 [1, 0, 0], member 1 [1, 0, 0]] true true = .ok s) ∧
    make { tellRs with checkDuplicated := true } [member 0 [1, 0, 0], member 1 [1, 0, 0], member 0 [0, 0, 1]] true false =
      .error .valueError ∧
    (∃ s, make { tellRs with checkDuplicated := false } [member 0 [1, 0, 0], member 1 [1, 0, 0], member 0 [0, 0, 1]] true false =
      .ok s) :=
  ⟨tellRs_texts, ⟨_, rfl⟩, rfl, ⟨_, rfl⟩⟩

/-- **C40 is false of rules which are added later:** `append` and `+=` do not look for duplicates. -/
theorem C40_added_false :
    let R := { tellRs with checkDuplicated := true }
    ∃ s t, make R [member 0 [1, 0, 0]] true false = .ok s ∧ append R (member 0 [1, 0, 0]) true s = (.ok (), t) ∧
      iaddSet R s s = (.ok (), t) ∧ t.rules = [member 0 [1, 0, 0], member 0 [1, 0, 0]] :=
  ⟨_, _, rfl, rfl, rfl, rfl⟩

/-! ## C41 -/

/-- A position counted from the start, or from the end if it is negative -/
def place (len i : Int) : Int := if i < 0 then i + len else i

/-- The position `x` is one of those of `[start:stop:k]` in a list of this length: from the first one on, every `k`-th, before
`stop`. -/
def Selected (start stop : Option Int) (k len x : Int) : Prop :=
  if 0 < k then
    let first := (start.map fun i => max (place len i) 0).getD 0
    first ≤ x ∧ (∀ j, stop = some j → x < place len j) ∧ k ∣ x - first
  else
    let first := (start.map fun i => min (place len i) (len - 1)).getD (len - 1)
    x ≤ first ∧ (∀ j, stop = some j → place len j < x) ∧ k ∣ x - first

/-- **C41 (slices), partial.** `ruleset[start:stop:step]` has the rules at the positions selected, in increasing order if the step
is positive and in decreasing order if it is negative; it does not stack activations.
Missing: with `all_features_indexes` the conditions are changed (`C41_indexes_false`). -/
theorem C41_slice_partial {R : RsEnv} {s t : RuleSet} {start stop step : Option Int} (hA : R.allIndexes = [])
    (h : slice R s start stop step = .ok t) :
    step ≠ some 0 ∧ t.stack = false ∧ t.stacked = none ∧
    ∃ ps : List Nat, List.Forall₂ (fun p m => s.rules[p]? = some m) ps t.rules ∧
      (∀ x, x ∈ ps ↔ x < s.rules.length ∧ Selected start stop (step.getD 1) s.rules.length x) ∧
      (0 < step.getD 1 → ps.Pairwise (· < ·)) ∧ (step.getD 1 < 0 → ps.Pairwise (· > ·)) := by
  unfold slice at h
  simp only [bind, Except.bind] at h
  split at h
  · cases h
  rename_i p hp
  split at h
  · cases h
  rename_i rules hr
  have hm := make_ok h
  have hstacked := hm.stacked
  simp only [Bool.false_eq_true, if_false] at hstacked
  rw [(hm.noIndexes hA).1]
  have hk : step.getD 1 ≠ 0 := by
    intro e
    simp only [sliceIndices, e, if_true] at hp
    cases hp
  refine ⟨fun e => hk (by rw [e]; rfl), hm.stack, hstacked, ?_⟩
  -- positions
  have key : ∀ x : Int, x ∈ pyRange p.1 p.2.1 p.2.2 ↔
      0 ≤ x ∧ x < s.rules.length ∧ Selected start stop (step.getD 1) s.rules.length x := by
    intro x
    unfold sliceIndices at hp
    simp only [if_neg hk] at hp
    unfold Selected
    split at hp
    · rename_i hneg
      cases hp
      rw [mem_pyRange_down hneg, if_neg (by omega)]
      refine range_down ?_ ?_ ?_ <;> cases start <;> cases stop <;>
        simp only [Option.map_none, Option.map_some, Option.getD_none, Option.getD_some, reduceCtorEq, false_imp_iff, implies_true,
          and_true, true_or, Option.some.injEq, forall_eq', clip, place] <;>
        (try split_ifs) <;> omega
    · rename_i hneg
      cases hp
      rw [mem_pyRange_up (show 0 < step.getD 1 by omega), if_pos (by omega)]
      refine range_up ?_ ?_ ?_ <;> cases start <;> cases stop <;>
        simp only [Option.map_none, Option.map_some, Option.getD_none, Option.getD_some, reduceCtorEq, false_imp_iff, implies_true,
          and_true, true_or, Option.some.injEq, forall_eq', clip, place] <;>
        (try split_ifs) <;> omega
  have hk2 : p.2.2 = step.getD 1 := by
    unfold sliceIndices at hp
    simp only [if_neg hk] at hp
    split at hp <;> cases hp <;> rfl
  obtain ⟨rs, hrs, hf⟩ := mapM_getItem (l := s.rules) (ps := pyRange p.1 p.2.1 p.2.2) fun x hx =>
    ⟨((key x).1 hx).1, ((key x).1 hx).2.1⟩
  rw [hr] at hrs
  cases hrs
  refine ⟨_, hf, ?_, ?_, ?_⟩
  · intro x
    rw [List.mem_map]
    constructor
    · rintro ⟨y, hy, rfl⟩
      obtain ⟨h0, h1, h2⟩ := (key y).1 hy
      rw [Int.toNat_of_nonneg h0]
      exact ⟨by omega, h2⟩
    · rintro ⟨h1, h2⟩
      exact ⟨x, (key x).2 ⟨by omega, by omega, h2⟩, by omega⟩
  · intro hpos
    rw [← hk2] at hpos
    rw [List.pairwise_map]
    refine (pyRange_up hpos).imp_of_mem fun {x y} hx hy hxy => ?_
    have := ((key x).1 hx).1
    omega
  · intro hneg
    rw [← hk2] at hneg
    rw [List.pairwise_map]
    refine (pyRange_down hneg).imp_of_mem fun {x y} hx hy hxy => ?_
    have := ((key y).1 hy).1
    omega

/-- **C41 (activation of a slice), partial.** When the rules of the ruleset all have an activation of the same points, a slice with at
least one rule has an activation, 1 exactly at the points which one of the rules selected activates, and the coverage of the slice is
the fraction of these points: that of the ruleset it was taken from does not matter.
Missing: rules without activation (`C25_no_activation_false`). -/
theorem C41_activation_partial {R : RsEnv} {s t : RuleSet} {start stop step : Option Int} {n : Nat} (hn : 0 < n)
    (hs : ∀ m ∈ s.rules, HasPoints n m) (h : slice R s start stop step = .ok t) (hne : t.rules ≠ []) :
    t.act = some (vec n (coveredBy t.rules)) ∧
      t.rulesetCoverage = .num (.fin ((((List.range n).filter (coveredBy t.rules)).length : Rat) / n)) := by
  unfold slice at h
  simp only [bind, Except.bind] at h
  split at h
  · cases h
  rename_i p hp
  split at h
  · cases h
  rename_i rules hr
  refine C25_union_partial hn (.make ?_ h) hne
  intro m hm
  obtain ⟨i, hi⟩ : ∃ i, getItem s.rules i = .ok m := by
    clear h
    clear hp
    generalize pyRange p.1 p.2.1 p.2.2 = ps at hr
    induction ps generalizing rules with
    | nil =>
      cases hr
      cases hm
    | cons i ps ih =>
      rw [List.mapM_cons] at hr
      simp only [bind, Except.bind] at hr
      split at hr
      · cases hr
      rename_i m' hm'
      split at hr
      · cases hr
      rename_i l hl
      cases hr
      rcases List.mem_cons.1 hm with rfl | hm
      · exact ⟨i, hm'⟩
      · exact ih _ hm hl
  refine hs m ?_
  unfold getItem at hi
  split at hi
  · cases hi
  · split at hi
    · rename_i hg
      cases hi
      exact List.mem_of_getElem? hg
    · cases hi

/-- The last of three rules alone, which activates the first two of three points -/
example : (∀ m ∈ threeRules.rules, HasPoints 3 m) ∧ ∃ t, slice someRs threeRules (some (-1)) none none = .ok t ∧ t.rules ≠ [] ∧
    t.act = some [1, 1, 0] ∧ threeRules.act = some [1, 1, 1] := by
  refine ⟨?_, _, rfl, List.cons_ne_nil _ _, rfl, rfl⟩
  intro m hm
  have hm : m ∈ [member 0 [1, 0, 0], member 1 [0, 0, 1], member 2 [1, 1, 0]] := hm
  simp only [List.mem_cons, List.not_mem_nil, or_false] at hm
  rcases hm with rfl | rfl | rfl
  · exact member_hasPoints 0 true false false
  · exact member_hasPoints 1 false false true
  · exact member_hasPoints 2 true true false

/-- A slice with a null step raises `ValueError`. -/
theorem C41_step {R : RsEnv} {s : RuleSet} {start stop : Option Int} : slice R s start stop (some 0) = .error .valueError := rfl

/-- **C41 (one rule).** `ruleset[i]` is the rule at this position, counted from the end if it is negative; out of range it raises
`IndexError`. -/
theorem C41_item {s : RuleSet} {i : Int} :
    (∀ m, getItem s.rules i = .ok m ↔ 0 ≤ place s.rules.length i ∧ s.rules[(place s.rules.length i).toNat]? = some m) ∧
    (i < -(s.rules.length : Int) ∨ s.rules.length ≤ i → getItem s.rules i = .error .indexError) := by
  unfold getItem place
  constructor
  · intro m
    by_cases h : i < -(s.rules.length : Int)
    · rw [if_pos h, if_pos (by omega)]
      constructor
      · intro e
        cases e
      · rintro ⟨e, -⟩
        omega
    · rw [if_neg h]
      have h0 : 0 ≤ (if i < 0 then i + s.rules.length else i) := by split_ifs <;> omega
      generalize (if i < 0 then i + (s.rules.length : Int) else i) = p at h0 ⊢
      rcases s.rules[p.toNat]? with _ | m' <;> simp [h0]
  · rintro (h | h)
    · rw [if_pos h]
    · rw [if_neg (by omega), if_neg (by omega), List.getElem?_eq_none (by omega)]

/-- Whether some rules come out, for the examples -/
def lowerBounds (r : Except Err RuleSet) : Option (List (Option (List Num))) :=
  match r with
  | .ok s => some (s.rules.map fun m => m.rule.cond.bmins)
  | .error _ => none

example : someRs.allIndexes = [] ∧
    lowerBounds (slice someRs threeRules (some (-2)) none none) = some [some [.fin 1], some [.fin 2]] ∧
    lowerBounds (slice someRs threeRules none none (some (-2))) = some [some [.fin 2], some [.fin 0]] ∧
    lowerBounds (slice someRs threeRules (some 7) (some (-7)) (some (-1))) = some [some [.fin 2], some [.fin 1], some [.fin 0]] ∧
    lowerBounds (slice someRs threeRules (some 2) (some 1) none) = some [] ∧
    getItem threeRules.rules (-1) = .ok (member 2 [1, 1, 0]) ∧ getItem threeRules.rules 3 = .error .indexError :=
  ⟨rfl, by decide +kernel, by decide +kernel, by decide +kernel, by decide +kernel, rfl, rfl⟩

/-- **C41 is false with `all_features_indexes`:** slicing changes the indexes of the conditions.  (The rules are the same objects as
those of the ruleset, which is changed.) -/
theorem C41_indexes_false :
    let R := { someRs with allIndexes := [("a", 7)] }
    ∃ t, slice R twoRules none none none = .ok t ∧ twoRules.rules.map (fun m => m.rule.cond.indexes) = [some [0], some [0]] ∧
      t.rules.map (fun m => m.rule.cond.indexes) = [some [7], some [7]] := ⟨_, rfl, rfl, rfl⟩

end Verif.RuleSetProps
