import Verif.StackedEvalLemmas
import Verif.FitProps

/-!
# Lemmas about stacked eval: all rules of a ruleset
-/

namespace Verif.RuleSet

open Verif Vote Spec RFun

variable {R : RsEnv}

/-- What the stacked eval works with: the stacked activations, and whether they are removed afterwards -/
theorem prepareEval_ok {xs : Option Xs} {keep : Bool} {s s1 : RuleSet} {p : Option (Columns Nat) × Bool}
    (hx : ∀ x, xs = some x → x.length ≠ 0) (h : prepareEval R xs keep s = (.ok p, s1)) :
    (∃ x la a c, xs = some x ∧ keep = true ∧ EachDone R (fun E => Rule.calcActivation E (some x)) s.rules la ∧
        evaluateSelf R none la = .ok a ∧ evaluateStacked R none la = .ok c ∧
        s1 = { s with rules := la, act := a, stacked := c } ∧ p = (c, !s.stack)) ∨
      (∃ x c, xs = some x ∧ keep = false ∧ evaluateStacked R (some x) s.rules = .ok c ∧ s1 = s ∧ p = (c, false)) ∨
      (xs = none ∧ s.stacked = none ∧ ∃ c a, evaluateStacked R none s.rules = .ok c ∧ evaluateSelf R none s.rules = .ok a ∧
        s1 = { s with stacked := c, act := a } ∧ p = (c, !s.stack)) ∨
      (xs = none ∧ s.stacked ≠ none ∧ s1 = s ∧ p = (s.stacked, false)) := by
  unfold prepareEval at h
  cases xs with
  | some x =>
    simp only at h
    cases keep with
    | true =>
      rw [if_pos rfl] at h
      obtain ⟨clean, s2, h2, h⟩ := Py.bind_eq_ok h
      obtain ⟨s3, h3, rfl, rfl⟩ := whileStacking_ok h2
      obtain ⟨la, a, c, g1, g2, g3, rfl⟩ := calcActivation_ok (hx x rfl) rfl h3
      rw [Py.bind_ok (Py.get_run _)] at h
      simp only [Py.pure_run] at h
      cases h
      exact .inl ⟨x, la, a, c, rfl, rfl, g1, g2, g3, rfl, rfl⟩
    | false =>
      rw [if_neg (by simp), Py.bind_ok (Py.get_run _)] at h
      obtain ⟨c, s2, h2, h⟩ := Py.bind_eq_ok h
      obtain ⟨g1, rfl⟩ := Rule.ofExcept_ok h2
      obtain ⟨_, s3, h3, h⟩ := Py.bind_eq_ok h
      obtain ⟨-, rfl⟩ := Rule.ofExcept_ok h3
      simp only [Py.pure_run] at h
      cases h
      exact .inr (.inl ⟨x, c, rfl, rfl, g1, rfl, rfl⟩)
  | none =>
    simp only at h
    rw [Py.bind_ok (Py.get_run _)] at h
    cases hst : s.stacked with
    | none =>
      rw [hst] at h
      simp only [Option.isNone_none, if_true] at h
      obtain ⟨clean, s2, h2, h⟩ := Py.bind_eq_ok h
      rw [Py.bind_ok (Py.get_run _)] at h
      simp only [Py.pure_run] at h
      cases h
      obtain ⟨s3, h3, rfl, rfl⟩ := whileStacking_ok h2
      obtain ⟨_, s4, h4, h3⟩ := Py.bind_eq_ok h3
      obtain ⟨c, hc, rfl⟩ := computeStacked_ok h4
      obtain ⟨_, s5, h5, h3⟩ := Py.bind_eq_ok h3
      unfold computeSelf at h5
      rw [Py.bind_ok (Py.get_run _)] at h5
      obtain ⟨a, s6, h6, h5⟩ := Py.bind_eq_ok h5
      obtain ⟨ha, rfl⟩ := Rule.ofExcept_ok h6
      rw [Py.modify_run] at h5
      cases h5
      unfold needStacked at h3
      rw [Py.bind_ok (Py.get_run _)] at h3
      split at h3
      · simp at h3
      simp only [Py.pure_run] at h3
      cases h3
      exact .inr (.inr (.inl ⟨rfl, rfl, c, a, hc, ha, rfl, rfl⟩))
    | some c =>
      rw [hst] at h
      simp only [Option.isNone_some, Bool.false_eq_true, if_false] at h
      rw [Py.bind_ok (Py.pure_run _ _), Py.bind_ok (Py.get_run _)] at h
      simp only [Py.pure_run] at h
      cases h
      exact .inr (.inr (.inr ⟨rfl, by simp, rfl, by rw [hst]⟩))

theorem afterEvalStacked_ok {drops : List (Member × Nat)} {given : Bool} {s s' : RuleSet}
    (h : afterEvalStacked R drops given s = (.ok (), s')) :
    (drops = [] ∧ s' = s) ∨ (drops ≠ [] ∧ keepRules R.hasher drops s.rules.zipIdx = .ok s'.rules) := by
  unfold afterEvalStacked at h
  split at h
  · rename_i hpos
    obtain ⟨_, s1, h1, h⟩ := Py.bind_eq_ok h
    obtain ⟨d1, -, -, -⟩ := dropRules_ok h1
    obtain ⟨_, s2, h2, h⟩ := Py.bind_eq_ok h
    refine .inr ⟨List.ne_nil_of_length_pos hpos, ?_⟩
    have e2 : s2.rules = s1.rules := by
      rcases whenSet_ok h2 with ⟨-, rfl⟩ | ⟨-, h2⟩
      · rfl
      · obtain ⟨a, -, rfl⟩ := recomputeSelf_ok h2
        rfl
    have e3 : s'.rules = s2.rules := by
      rcases whenSet_ok h with ⟨-, rfl⟩ | ⟨-, h⟩
      · rfl
      · obtain ⟨a, -, rfl⟩ := recomputeStacked_ok h
        rfl
    rw [e3, e2]
    exact d1
  · rename_i hpos
    simp only [Py.pure_run] at h
    cases h
    exact .inl ⟨List.length_eq_zero_iff.1 (by omega), rfl⟩

/-- What the stacked eval does when it goes through -/
theorem evalStacked_ok {y : List Label} {xs : Option Xs} {keep : Bool} {w : Option WeightsArg} {kw : Rule.Kw} {s s' : RuleSet}
    {dropped : List Member} (hx : ∀ x, xs = some x → x.length ≠ 0) (hne : s.rules ≠ [])
    (h : evalStacked R y xs keep w kw s = (.ok dropped, s')) :
    ∃ k p s1 c vals ns l2 s2 s3 keep', (keep' = (keep || !(s.rules.all fun m => m.rule.fitted))) ∧ s.ruleType = some k ∧
      prepareEval R xs keep' s = (.ok p, s1) ∧ p.1 = some c ∧ height c = y.length ∧
      testFigures R k s1.rules c y kw = .ok vals ∧
      receiveAll R (fun r => { r with evaluated := true }) vals 0 s1.rules = (.ok ns, l2) ∧
      afterEvalStacked R (dropList l2 ns) (xs.isSome && keep') { s1 with stacked := if p.2 then none else s1.stacked, rules := l2 } = (.ok (), s2) ∧
      calcCriterion R y (if keep' then none else xs) w kw s2 = (.ok (), s3) ∧
      s' = { s3 with testSize := .num (.fin y.length) } ∧ dropped = (dropList l2 ns).map (·.1) := by
  unfold evalStacked at h
  obtain ⟨k, s0, h0, h'⟩ := Py.bind_eq_ok h
  clear h
  rename' h' => h
  have : s0 = s ∧ s.ruleType = some k := by
    unfold needType at h0
    rw [Py.bind_ok (Py.get_run s)] at h0
    cases hk : s.ruleType with
    | none => simp [hk] at h0
    | some k =>
      simp only [hk, Py.pure_run] at h0
      cases h0
      exact ⟨rfl, rfl⟩
  obtain ⟨rfl, hk⟩ := this
  split at h
  · simp at h
  rw [Py.bind_ok (Py.get_run _)] at h
  split at h
  · rename_i e
    rw [Option.any_eq_true] at e
    obtain ⟨x, hx1, hx2⟩ := e
    exact absurd (by simpa using hx2) (hx x hx1)
  split at h
  · rename_i e
    exact absurd (List.length_eq_zero_iff.1 e) hne
  split at h
  · simp at h
  obtain ⟨p, s1, h1, h⟩ := Py.bind_eq_ok h
  rw [Py.bind_ok (Py.get_run _)] at h
  obtain ⟨c, s2, h2, h⟩ := Py.bind_eq_ok h
  obtain ⟨hc, rfl⟩ := Rule.ofExcept_ok h2
  obtain ⟨vals, s3, h3, h⟩ := Py.bind_eq_ok h
  obtain ⟨hv, rfl⟩ := Rule.ofExcept_ok h3
  obtain ⟨_, s4, h4, h⟩ := Py.bind_eq_ok h
  obtain ⟨ns, s5, h5, h⟩ := Py.bind_eq_ok h
  rw [Py.bind_ok (Py.get_run _)] at h
  obtain ⟨_, s6, h6, h⟩ := Py.bind_eq_ok h
  obtain ⟨_, s7, h7, h⟩ := Py.bind_eq_ok h
  unfold calcTestSetSize at h
  rw [Py.bind_ok (Py.modify_run _ _)] at h
  simp only [Py.pure_run] at h
  cases h
  have hcr : p.1 = some c ∧ height c = y.length := by
    unfold checkRows at hc
    cases hst : p.1 with
    | none => rw [hst] at hc; cases hc
    | some c' =>
      rw [hst] at hc
      simp only at hc
      split at hc
      · cases hc
        exact ⟨rfl, ‹_›⟩
      · cases hc
  have e4 : s4 = { s1 with stacked := if p.2 then none else s1.stacked } := by
    unfold cleanIf at h4
    cases hp2 : p.2 with
    | true =>
      simp only [hp2, if_true, Py.modify_run] at h4
      cases h4
      rfl
    | false =>
      simp only [hp2, Bool.false_eq_true, if_false, Py.pure_run] at h4
      cases h4
      rfl
  subst e4
  unfold receiveRules at h5
  simp only at h5
  rcases hr : receiveAll R (fun r => { r with evaluated := true }) vals 0 s1.rules with ⟨x, l2⟩
  rw [hr] at h5
  obtain ⟨rfl, rfl⟩ := Prod.mk.inj h5
  exact ⟨k, p, s1, c, vals, ns, l2, s6, s7, _, rfl, hk, h1, hcr.1, hcr.2, hv, hr, h6, h7, rfl, rfl⟩

/-- The columns computed from features -/
theorem evaluateStacked_given {x : Xs} {rules : List Member} (hd : DifferentTexts R rules) {c : Columns Nat}
    (h : evaluateStacked R (some x) rules = .ok (some c)) :
    List.Forall₂ (fun m p => p.1 = R.condStr m.rule.cond ∧ m.rule.evaluateActivation (R.ofKind m.kind) x = .ok p.2) rules c := by
  unfold evaluateStacked at h
  split at h
  · rename_i e
    cases h
    rw [List.length_eq_zero_iff.1 e]
    exact .nil
  · simp only [activations] at h
    rename_i hlen
    clear hlen
    cases hm : rules.mapM fun m : Member => m.rule.evaluateActivation (R.ofKind m.kind) x with
    | error e =>
      rw [hm] at h
      cases h
    | ok acts =>
      have hf := mapM_eq_ok hm
      have hz : List.Forall₂ (fun (m : Member) (p : String × List Nat) => p.1 = R.condStr m.rule.cond ∧
          m.rule.evaluateActivation (R.ofKind m.kind) x = .ok p.2) rules (namedColumns R rules acts) := by
        clear h hm hd
        unfold namedColumns
        induction hf with
        | nil => exact .nil
        | cons h _ ih => exact .cons ⟨rfl, h⟩ ih
      have hn := forall2_fst (f := fun m : Member => R.condStr m.rule.cond) (fun a p h => h.1) hz
      rw [hm] at h
      have h : (frameOf (namedColumns R rules acts)).map some = .ok (some c) := h
      unfold frameOf at h
      rw [dictOf_nodup (by rw [hn]; exact hd)] at h
      have : c = namedColumns R rules acts := by
        revert h
        cases namedColumns R rules acts with
        | nil => intro h; cases h; rfl
        | cons a l =>
          intro h
          simp only at h
          split at h
          · cases h; rfl
          · cases h
      rw [this]
      exact hz

/-- The rules kept when those of `dropList` are dropped from rules which are all different -/
theorem keep_dropList {l kept : List Member} {ns : List Nat} (hd : DifferentRules R.hasher l) (hlen : ns.length = l.length)
    (h : (dropList l ns = [] ∧ kept = l) ∨ keepRules R.hasher (dropList l ns) l.zipIdx = .ok kept) :
    kept = (l.zipIdx.filter fun p => ns[p.2]? = some 0).map (·.1) := by
  have hget : ∀ p ∈ l.zipIdx, l[p.2]? = some p.1 := by
    intro p hp
    obtain ⟨a, i⟩ := p
    exact List.mk_mem_zipIdx_iff_getElem?.1 hp
  have hn : ∀ p ∈ l.zipIdx, (ns[p.2]? = some 0 ↔ p ∉ dropList l ns) := by
    intro p hp
    have e := hget p hp
    have hlt : p.2 < l.length := (List.getElem?_eq_some_iff.1 e).1
    rw [mem_dropList, List.getElem?_eq_getElem (by omega : p.2 < ns.length)]
    simp only [e, Option.some.injEq, true_and, not_exists, not_and]
    constructor
    · rintro h n rfl
      omega
    · intro h
      have := h _ rfl
      omega
  rcases h with ⟨he, hr⟩ | hr
  · rw [hr, List.filter_eq_self.2]
    · simp [List.zipIdx_map_fst]
    · intro p hp
      rw [decide_eq_true_eq, hn p hp, he]
      exact List.not_mem_nil
  · rw [keepRules_ok hr]
    congr 1
    apply List.filter_congr
    intro p hp
    rw [decide_eq_decide, hn p hp]
    constructor
    · intro h hm
      exact h ⟨p, hm, .inl rfl⟩
    · rintro h ⟨d, hdm, hd' | hd'⟩
      · obtain ⟨n, g1, g2, g3⟩ := mem_dropList.1 hdm
        have := hget p hp
        rw [← hd', g1] at this
        have e : d = p := Prod.ext (Option.some.inj this) hd'
        exact h (e ▸ hdm)
      · obtain ⟨n, g1, g2, g3⟩ := mem_dropList.1 hdm
        have g4 := hget p hp
        unfold DifferentRules at hd
        rw [List.pairwise_iff_getElem] at hd
        obtain ⟨i1, i2⟩ := List.getElem?_eq_some_iff.1 g1
        obtain ⟨j1, j2⟩ := List.getElem?_eq_some_iff.1 g4
        rcases lt_trichotomy p.2 d.2 with hlt | heq | hlt
        · have := hd p.2 d.2 j1 i1 hlt
          rw [i2, j2] at this
          exact this hd'
        · have : d = p := by
            rw [heq, g1] at g4
            exact Prod.ext (Option.some.inj g4) heq.symm
          exact h (this ▸ hdm)
        · have := hd d.2 p.2 i1 j1 hlt
          rw [i2, j2] at this
          exact this (RuleSetProps.condEq_symm hd')

/-- `to_drop` when each rule is put there once at most -/
theorem dropList_once {l : List Member} {ns : List Nat} (hlen : ns.length = l.length) (h1 : ∀ n ∈ ns, n ≤ 1) :
    (dropList l ns).map (·.1) = (l.zipIdx.filter fun p => !decide (ns[p.2]? = some 0)).map (·.1) := by
  have key : ∀ (l : List Member) (ns ns0 : List Nat), ns.length = l.length → (∀ n ∈ ns, n ≤ 1) →
      (List.zipWith (fun p n => List.replicate n p) (l.zipIdx ns0.length) ns).flatten =
        (l.zipIdx ns0.length).filter fun p => !decide ((ns0 ++ ns)[p.2]? = some 0) := by
    intro l
    induction l with
    | nil => intro ns ns0 _ _; simp
    | cons m l ih =>
      intro ns ns0 hlen h1
      cases ns with
      | nil => simp at hlen
      | cons n ns =>
        have e := ih ns (ns0 ++ [n]) (by simpa using hlen) fun k hk => h1 k (by simp [hk])
        rw [List.length_append, List.length_singleton, List.append_assoc, List.singleton_append] at e
        rw [List.zipIdx_cons, List.zipWith_cons_cons, List.flatten_cons, List.filter_cons, e]
        have hget : (ns0 ++ n :: ns)[ns0.length]? = some n := by simp
        simp only [hget]
        have := h1 n (by simp)
        by_cases hn : n = 0
        · simp [hn]
        · have : n = 1 := by omega
          simp [this]
  have := key l ns [] hlen h1
  unfold dropList
  rw [show l.zipIdx = l.zipIdx ([] : List Nat).length from rfl, this]
  rfl

theorem leaves_setFigures_act (E : Env) (i : Nat) (vals : List (String × Series Label)) :
    Rule.Leaves (fun r => r.act) (setFigures E i vals) := by
  induction vals with
  | nil => exact Rule.leaves_pure _
  | cons p vals ih =>
    obtain ⟨a, s⟩ := p
    unfold setFigures
    refine Rule.leaves_bind (Rule.leaves_ofExcept _) fun x => Rule.leaves_bind (Rule.leaves_modify fun r => ?_) fun _ =>
      Rule.leaves_bind (fun r => ?_) fun _ => Rule.leaves_bind Rule.leaves_get fun _ =>
      Rule.leaves_bind ih fun _ => Rule.leaves_pure _
    · unfold setFigure
      split_ifs <;> rfl
    · have := congrArg Rule.act (Rule.checkIfGood_data E a r)
      exact this

theorem receive_act {E : Env} {i n : Nat} {vals : List (String × Series Label)} {r r' : Rule}
    (hr : receive E (fun r => { r with evaluated := true }) i vals r = (.ok n, r')) : r'.act = r.act := by
  have : Rule.Leaves (fun r => r.act) (do
      let n ← setFigures E i vals
      Rule.checkAllIfGood E
      pure n) :=
    Rule.leaves_bind (leaves_setFigures_act _ _ _) fun _ => Rule.leaves_bind (fun r => by
      have := congrArg Rule.act (Rule.checkAllIfGood_data E r)
      exact this) fun _ => Rule.leaves_pure _
  unfold receive at hr
  rw [Py.bind_ok (Py.modify_run _ _)] at hr
  have := this { r with evaluated := true }
  rw [hr] at this
  exact this

theorem receiveAll_act {vals : List (String × Series Label)} {i : Nat} {l l2 : List Member} {ns : List Nat}
    (h : receiveAll R (fun r => { r with evaluated := true }) vals i l = (.ok ns, l2)) :
    l2.map (fun m => m.rule.act) = l.map fun m => m.rule.act := by
  induction l generalizing i l2 ns with
  | nil =>
    unfold receiveAll at h
    cases h
    rfl
  | cons m l ih =>
    unfold receiveAll at h
    rcases e : receive (R.ofKind m.kind) (fun r => { r with evaluated := true }) i vals m.rule with ⟨x, r⟩
    rw [e] at h
    cases x with
    | error e => cases h
    | ok n =>
      simp only at h
      rcases e' : receiveAll R (fun r => { r with evaluated := true }) vals (i + 1) l with ⟨x, l'⟩
      rw [e'] at h
      cases x with
      | error e => cases h
      | ok ns' =>
        simp only at h
        cases h
        rw [List.map_cons, List.map_cons, ih e']
        rw [receive_act e]

/-- What the stacked and the plain eval leave of each rule -/
structure BothEvals (R : RsEnv) (s s' : RuleSet) (dropped : List Member) (l1 l2 : List Member) (ns : List Nat) : Prop where
  len1 : l1.length = s.rules.length
  len2 : l2.length = s.rules.length
  len3 : ns.length = s.rules.length
  same : ∀ (j : Nat) m m1 m2 n, s.rules[j]? = some m → l1[j]? = some m1 → l2[j]? = some m2 → ns[j]? = some n →
    m1.kind = m.kind ∧ m2.kind = m.kind ∧ m2.rule.cond = m.rule.cond ∧ SameEval m.rule m1.rule m2.rule ∧ n ≤ 1 ∧ (0 < n → m2.rule.good = false)
  dropped : dropped = (dropList l2 ns).map (·.1)

theorem both_evals {k : Kind} {y : List Label} {xs : Option Xs} {keep keep' : Bool} {w : Option WeightsArg} {kw : Rule.Kw} {s s' : RuleSet}
    {dropped : List Member} {l1 : List Member} (hc : CanEval R k y xs s) (hd : DifferentRules R.hasher s.rules) (hne : s.rules ≠ [])
    (hkeep : keep' = (keep || !(s.rules.all fun m => m.rule.fitted)))
    (h1 : EachDone R (fun E => Rule.eval E y xs keep' false kw) s.rules l1) (h2 : evalStacked R y xs keep w kw s = (.ok dropped, s')) :
    ∃ l2 ns kept, BothEvals R s s' dropped l1 l2 ns ∧ kept = (l2.zipIdx.filter fun p => ns[p.2]? = some 0).map (·.1) ∧
      List.Forall₂ SameButActivation kept s'.rules ∧ s'.testSize = .num (.fin y.length) ∧
      ∃ p sa sb sc, prepareEval R xs keep' s = (.ok p, sa) ∧ l2.map (fun m => m.rule.act) = sa.rules.map (fun m => m.rule.act) ∧
        afterEvalStacked R (dropList l2 ns) (xs.isSome && keep') { sa with stacked := if p.2 then none else sa.stacked, rules := l2 } = (.ok (), sb) ∧
        sb.rules = kept ∧ calcCriterion R y (if keep' then none else xs) w kw sb = (.ok (), sc) ∧
        s' = { sc with testSize := .num (.fin y.length) } := by
  obtain ⟨k', p, s1, c, vals, ns, l2, s2, s3, keep'', e0, hk', hp, hc1, hc2, hv, hra, haf, hcr, rfl, rfl⟩ := evalStacked_ok hc.points hne h2
  rw [← hkeep] at e0
  subst e0
  rw [hc.type] at hk'
  cases hk'
  -- the rules which get the criterion
  have prep : List.Forall₂ (fun m ma : Member => ma.kind = m.kind ∧ Prepared (R.ofKind m.kind) xs keep'' m.rule ma.rule) s.rules s1.rules := by
    rcases prepareEval_ok hc.points hp with ⟨x, la, a, c', rfl, rfl, hla, -, -, rfl, -⟩ | ⟨x, c', rfl, rfl, -, rfl, -⟩ | ⟨rfl, -, c', a, -, -, rfl, -⟩ | ⟨rfl, -, rfl, -⟩
    · exact hla.imp fun m ma h => h
    all_goals exact List.forall₂_same.2 fun m hm => ⟨rfl, rfl⟩
  have hlen : s1.rules.length = s.rules.length := (List.Forall₂.length_eq prep).symm
  have hconds : s1.rules.map (fun m => R.condStr m.rule.cond) = s.rules.map fun m => R.condStr m.rule.cond := by
    have hpt := hc.points
    clear hra haf hv hp hc1 h1 h2 hc hd hne hlen hkeep hcr
    generalize s1.rules = l at prep
    generalize s.rules = l0 at prep
    induction prep with
    | nil => rfl
    | cons h _ ih => rw [List.map_cons, List.map_cons, ih, (prepared_data hpt h.2).2.1]
  have hd1 : DifferentTexts R s1.rules := by
    unfold DifferentTexts
    rw [hconds]
    exact hc.texts
  -- the columns
  have hcols : c.map (·.1) = (s1.rules.map fun m => R.condStr m.rule.cond) ∧
      ∀ (j : Nat) m ma, s.rules[j]? = some m → s1.rules[j]? = some ma → ∀ u, Rule.Uses (R.ofKind k) m.rule xs (arr u) →
        c[j]? = some (R.condStr ma.rule.cond, arr u) := by
    have stored : ∀ rules : List Member, DifferentTexts R rules →
        (∀ m ∈ rules, HasPoints y.length m) → ∀ c', evaluateStacked R none rules = .ok c' → c' = some c → c = columnsOf R rules := by
      intro rules hdr hpts c' he e
      have := evaluateStacked_stored hpts hdr he
      rw [this] at e
      exact (Option.some.inj e).symm
    have pts : ∀ (rules : List Member), (∀ m ∈ rules, ∃ u : List Bool, m.rule.act = some (arr u) ∧ u.length = y.length) →
        ∀ m ∈ rules, HasPoints y.length m := by
      intro rules h m hm
      obtain ⟨u, e1, e2⟩ := h m hm
      refine ⟨fun i => u[i]?.getD false, ?_⟩
      rw [e1, arr_vec, e2]
    rcases prepareEval_ok hc.points hp with ⟨x, la, a, c', rfl, rfl, hla, -, he, rfl, rfl⟩ | ⟨x, c', rfl, rfl, he, rfl, rfl⟩ | ⟨rfl, -, c', a, he, -, rfl, rfl⟩ | ⟨rfl, hs, rfl, rfl⟩
    · have hacts : ∀ (j : Nat) m ma, s.rules[j]? = some m → la[j]? = some ma → ∀ u, Rule.Uses (R.ofKind k) m.rule (some x) (arr u) →
          ma.rule.act = some (arr u) := by
        intro j m ma hj hja u hu
        obtain ⟨ma', e1, e2, e3⟩ := forall2_get hla hj
        rw [hja] at e1
        cases e1
        rw [hc.kinds m (List.mem_of_getElem? hj)] at e3
        obtain ⟨w', hw, hdt⟩ := Rule.calcActivation_ok e3 (hc.points x rfl)
        have hu : m.rule.evaluateActivation (R.ofKind k) x = .ok (arr u) := hu
        rw [hu] at hw
        cases hw
        have := congrArg Rule.act hdt
        exact this
      have hcol : c = columnsOf R la := by
        refine stored la hd1 (pts la ?_) c' he hc1
        intro ma hma
        obtain ⟨j, hja⟩ := List.mem_iff_getElem?.1 hma
        obtain ⟨m, hj⟩ := get_of_length hlen.symm hja
        obtain ⟨u, hu, hl, -⟩ := hc.comparable m (List.mem_of_getElem? hj)
        exact ⟨u, hacts j m ma hj hja u hu, hl.symm⟩
      rw [hcol]
      refine ⟨columnsOf_fst _, ?_⟩
      intro j m ma hj hja u hu
      rw [columnsOf_get hja, hacts j m ma hj hja u hu]
      rfl
    · have hc1 : c' = some c := hc1
      subst hc1
      have hg := evaluateStacked_given hc.texts he
      refine ⟨forall2_fst (f := fun m : Member => R.condStr m.rule.cond) (fun a p h => h.1) hg, ?_⟩
      intro j m ma hj hja u hu
      have hj' : s1.rules[j]? = some m := hj
      rw [hj'] at hja
      cases hja
      obtain ⟨q, e1, e2, e3⟩ := forall2_get hg hj
      rw [e1]
      rw [hc.kinds m (List.mem_of_getElem? hj)] at e3
      have hu : m.rule.evaluateActivation (R.ofKind k) x = .ok (arr u) := hu
      rw [hu] at e3
      congr 1
      exact Prod.ext e2 (Except.ok.inj e3).symm
    · have hacts : ∀ m ∈ s.rules, ∃ u : List Bool, m.rule.act = some (arr u) ∧ u.length = y.length := by
        intro m hm
        obtain ⟨u, hu, hl, -⟩ := hc.comparable m hm
        exact ⟨u, hu, hl.symm⟩
      have hcol : c = columnsOf R s.rules := stored s.rules hc.texts (pts _ hacts) c' he hc1
      rw [hcol]
      refine ⟨columnsOf_fst _, ?_⟩
      intro j m ma hj hja u hu
      have hja : s.rules[j]? = some ma := hja
      rw [hj] at hja
      cases hja
      rw [columnsOf_get hj, show m.rule.act = some (arr u) from hu]
      rfl
    · have hcol : c = columnsOf R s1.rules := by
        rcases hc.stacked rfl with e | e
        · exact absurd e hs
        · have hc1 : s1.stacked = some c := hc1
          rw [hc1] at e
          exact Option.some.inj e
      rw [hcol]
      refine ⟨columnsOf_fst _, ?_⟩
      intro j m ma hj hja u hu
      rw [hj] at hja
      cases hja
      rw [columnsOf_get hj, show m.rule.act = some (arr u) from hu]
      rfl
  have hlen1 : l1.length = s.rules.length := (List.Forall₂.length_eq h1).symm
  obtain ⟨ns', l2', hra', len3, len2, hall⟩ := receiveAll_ok (R := R) (mark := fun r => { r with evaluated := true }) (vals := vals)
    (l := s1.rules) (i := 0)
    (P := fun j n m2 => ∀ m m1, s.rules[j]? = some m → l1[j]? = some m1 → m1.kind = m.kind ∧ m2.kind = m.kind ∧
      m2.rule.cond = m.rule.cond ∧ SameEval m.rule m1.rule m2.rule ∧ n ≤ 1 ∧ (0 < n → m2.rule.good = false)) (by
      intro j ma hj
      rw [Nat.zero_add]
      obtain ⟨m, hm⟩ := get_of_length hlen.symm hj
      obtain ⟨m1, hm1, e1, e2⟩ := forall2_get h1 hm
      obtain ⟨ma', e3, e4, e5⟩ := forall2_get prep hm
      rw [hj] at e3
      cases e3
      have hmm := List.mem_of_getElem? hm
      have hkm := hc.kinds m hmm
      rw [hkm] at e2 e4 e5
      obtain ⟨n, r2, hrec, hsame, hle, hbad⟩ := eval_receive hc.extra hc.points (hc.comparable m hmm) e2 e5 hd1 hj rfl hcols.1
        (hcols.2 j m ma hm hj) hv
      refine ⟨n, r2, by rw [e4]; exact hrec, ?_⟩
      intro m' m1' hm' hm1'
      rw [hm] at hm'
      cases hm'
      rw [hm1] at hm1'
      cases hm1'
      have hcond : m1.rule.cond = m.rule.cond := by
        have := Rule.leaves_eval (R.ofKind k) y xs keep'' false kw m.rule
        rw [show Rule.eval (R.ofKind k) y xs keep'' false kw m.rule = (.ok (), m1.rule) from e2] at this
        exact this
      exact ⟨e1, by rw [e4, hkm], hsame.cond.trans hcond, hsame, hle, hbad⟩)
  rw [hra] at hra'
  cases hra'
  have hsame : ∀ (j : Nat) m m1 m2 n, s.rules[j]? = some m → l1[j]? = some m1 → l2[j]? = some m2 → ns[j]? = some n →
      m1.kind = m.kind ∧ m2.kind = m.kind ∧ m2.rule.cond = m.rule.cond ∧ SameEval m.rule m1.rule m2.rule ∧ n ≤ 1 ∧
        (0 < n → m2.rule.good = false) := by
    intro j m m1 m2 n g1 g2 g3 g4
    have := hall j n m2 g4 g3
    rw [Nat.zero_add] at this
    exact this m m1 g1 g2
  have hl2 : l2.length = s.rules.length := len2.trans hlen
  have hl3 : ns.length = s.rules.length := len3.trans hlen
  have hd2 : DifferentRules R.hasher l2 := by
    refine RuleSetProps.different_map ?_ hd
    apply List.ext_getElem?
    intro j
    rw [List.getElem?_map, List.getElem?_map]
    cases hj : s.rules[j]? with
    | none =>
      rw [List.getElem?_eq_none_iff] at hj
      rw [List.getElem?_eq_none (by omega)]
    | some m =>
      have hj' := (List.getElem?_eq_some_iff.1 hj).1
      have := (hsame j m (l1[j]'(by omega)) (l2[j]'(by omega)) (ns[j]'(by omega)) hj (by simp) (by simp) (by simp)).2.2.1
      rw [List.getElem?_eq_getElem (by omega : j < l2.length)]
      simp [this]
  refine ⟨l2, ns, s2.rules, ⟨hlen1, hl2, hl3, hsame, rfl⟩, ?_, ?_, rfl, p, s1, s2, s3, hp, receiveAll_act hra, haf, rfl, hcr, rfl⟩
  · refine keep_dropList hd2 (hl3.trans hl2.symm) ?_
    rcases afterEvalStacked_ok haf with ⟨e, rfl⟩ | ⟨-, e⟩
    · exact .inl ⟨e, rfl⟩
    · exact .inr e
  · have hfr := calcCriterion_frame (R := R) y (if keep'' then none else xs) w kw s2
    rw [hcr] at hfr
    exact hfr.1

end Verif.RuleSet
