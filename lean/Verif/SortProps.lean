import Verif.TextDemo
import Verif.SortedLemmas

/-!
# Properties of rulesets: sorting
-/

namespace Verif.RuleSetProps

open Verif Vote Spec RuleSet

/-- **C27 (same rules).** Sorting, with or without criterion, whether it raises or not, keeps exactly the rules; only the order of
the rules and the stacked activations can change. -/
theorem C27_same_rules (R : RsEnv) (c : Option String) (reverse : Bool) (s : RuleSet) :
    (sort R c reverse s).2.rules.Perm s.rules ∧
      (sort R c reverse s).2 = { s with rules := (sort R c reverse s).2.rules, stacked := (sort R c reverse s).2.stacked } ∧
      (s.stack = false → (sort R c reverse s).2.stacked = s.stacked) := by
  unfold sort
  rw [Py.bind_ok (Py.get_run s)]
  split
  · exact ⟨.refl _, rfl, fun _ => rfl⟩
  · cases h : sortedRules R c reverse s with
    | error e =>
      rw [Py.bind_err (e := e) (s' := s) (by rw [Py.ofExcept_run])]
      exact ⟨.refl _, rfl, fun _ => rfl⟩
    | ok rules =>
      rw [Py.bind_ok (a := rules) (s' := s) (by rw [Py.ofExcept_run]), Py.bind_ok (Py.modify_run _ _)]
      have hp := sortedRules_perm h
      unfold stackIf
      rw [Py.bind_ok (Py.get_run _)]
      cases hb : s.stack with
      | false => exact ⟨hp, by simp, fun _ => by simp⟩
      | true =>
        simp only [if_true]
        unfold reorderStacked
        rw [Py.bind_ok (Py.get_run _)]
        cases hc : s.stacked with
        | none => exact ⟨hp, by simp only [hc, Py.throw_run], fun e => by cases e⟩
        | some c' =>
          simp only
          cases hs : selectColumns c' (rules.map fun m => R.condStr m.rule.cond) with
          | error e =>
            rw [Py.bind_err (e := e) (by rw [Py.ofExcept_run])]
            exact ⟨hp, rfl, fun e => by cases e⟩
          | ok c'' =>
            rw [Py.bind_ok (a := c'') (by rw [Py.ofExcept_run])]
            exact ⟨hp, rfl, fun e => by cases e⟩

/-- **C27 (order).** After `sort()` the rules are ordered by number of features, then by the text of their features (in reverse
if asked), then by their bounds in lexicographic order.
Missing: "features" are compared as texts, so that indexes and names can be in an unexpected order (`C27_index_order_false`,
`C27_name_order_false`); NaN bounds (`C27_nan_false`). -/
theorem C27_order_partial {R : RsEnv} {reverse : Bool} {s s' : RuleSet} (hT : TextsTellApart R)
    (hb : ∀ m ∈ s.rules, NumericBounds m) (h : sort R none reverse s = (.ok (), s')) :
    s'.rules.Pairwise (MayPrecede R (decide (0 < s.names.length)) reverse) := by
  rcases sort_ok h with ⟨he, rfl⟩ | ⟨rules, hr, ⟨-, rfl⟩ | ⟨-, c, c', -, -, rfl⟩⟩
  · rw [he]
    exact .nil
  · exact sortRules_ordered hT hb hr
  · exact sortRules_ordered hT hb hr

/-- **C27 (success and repetition).** `sort()` of rules with features and bounds which are not NaN does not raise, and sorting
again changes nothing.  With stacked activations: when they are the columns of the rules.
Missing: `sort()` with rules without features raises (`C27_no_feature_false`), with stacking and nothing stacked too
(`C27_no_stack_false`). -/
theorem C27_again_partial {R : RsEnv} {reverse : Bool} {s : RuleSet} (hT : TextsTellApart R) (hne : s.rules ≠ [])
    (hb : ∀ m ∈ s.rules, NumericBounds m) (hf : ∀ m ∈ s.rules, Sortable (decide (0 < s.names.length)) m)
    (hs : s.stack = true → s.stacked = some (columnsOf R s.rules) ∧ DifferentTexts R s.rules) :
    ∃ s', sort R none reverse s = (.ok (), s') ∧ sort R none reverse s' = (.ok (), s') := by
  obtain ⟨rules, hr⟩ := sortRules_succeeds (R := R) (reverse := reverse) hf
  have hp := sortRules_perm hr
  refine ⟨_, sort_of hne hr hs, ?_⟩
  obtain ⟨rules', hr'⟩ := sortRules_succeeds (R := R) (reverse := reverse) fun m hm => hf m (hp.mem_iff.1 hm)
  have e := sortRules_again hT hb hr hr'
  subst e
  rw [sort_of (rules := rules') (fun e => hne (hp.symm.trans (e ▸ .refl _)).eq_nil)]
  · cases hb : s.stack <;> simp
  · exact hr'
  · intro hb
    have hb : s.stack = true := hb
    refine ⟨by simp only [hb, if_true], DifferentTexts.perm hp.symm (hs hb).2⟩

/-- **C27 (initial order).** Two rulesets with the same rules in different orders have the same rules in the same order after
`sort()`, if no two different rules have the same features and bounds. -/
theorem C27_initial_order_partial {R : RsEnv} {reverse : Bool} {s1 s2 s1' s2' : RuleSet} (hT : TextsTellApart R)
    (hp : s1.rules.Perm s2.rules) (hn : s1.names = [] ↔ s2.names = [])
    (hb : ∀ m ∈ s1.rules, NumericBounds m)
    (hk : ∀ a ∈ s1.rules, ∀ b ∈ s1.rules, SameSortKey R (decide (0 < s1.names.length)) a b → a = b)
    (h1 : sort R none reverse s1 = (.ok (), s1')) (h2 : sort R none reverse s2 = (.ok (), s2')) : s1'.rules = s2'.rules := by
  have hd : decide (s2.names.length > 0) = decide (s1.names.length > 0) := by
    by_cases e : s1.names = []
    · rw [e, hn.1 e]
    · have e2 : s2.names ≠ [] := fun e2 => e (hn.2 e2)
      rw [decide_eq_true (List.length_pos_iff.2 e), decide_eq_true (List.length_pos_iff.2 e2)]
  have key : ∀ r1 r2, sortedRules R none reverse s1 = .ok r1 → sortedRules R none reverse s2 = .ok r2 → r1 = r2 := by
    intro r1 r2 e1 e2
    unfold sortedRules at e1 e2
    simp only at e1 e2
    rw [hd] at e2
    exact sortRules_order hT hp hb hk e1 e2
  rcases sort_ok h1 with ⟨he, rfl⟩ | ⟨r1, e1, h1'⟩
  · rw [he] at hp
    have he2 := hp.symm.eq_nil
    rcases sort_ok h2 with ⟨-, rfl⟩ | ⟨r2, e2, h2'⟩
    · rw [he, he2]
    · have := (sortedRules_perm e2)
      rw [he2] at this
      rcases h2' with ⟨-, rfl⟩ | ⟨-, c, c', -, -, rfl⟩ <;> rw [he, this.eq_nil]
  · rcases sort_ok h2 with ⟨he2, rfl⟩ | ⟨r2, e2, h2'⟩
    · rw [he2] at hp
      have he := hp.eq_nil
      have := (sortedRules_perm e1)
      rw [he] at this
      rcases h1' with ⟨-, rfl⟩ | ⟨-, c, c', -, -, rfl⟩ <;> rw [he2, this.eq_nil]
    · have e := key r1 r2 e1 e2
      rcases h1' with ⟨-, rfl⟩ | ⟨-, c, c', -, -, rfl⟩ <;> rcases h2' with ⟨-, rfl⟩ | ⟨-, d, d', -, -, rfl⟩ <;> exact e

/-- **C27 (columns).** In a ruleset made by any sequence of operations, with rules of different condition texts, the columns of
the stacked activations after a sort are those of the rules, in the new order. -/
theorem C27_columns {R : RsEnv} {n : Nat} {c : Option String} {reverse : Bool} {s s' : RuleSet} (hn : 0 < n)
    (hI : TextIgnoresIndexes R) (hs : Built R (HasPoints n) true s) (hd : DifferentTexts R s.rules) (hne : s.rules ≠ [])
    (h : sort R c reverse s = (.ok (), s')) : s'.stacked = some (columnsOf R s'.rules) := by
  have hp := (C27_same_rules R c reverse s).1
  rw [h] at hp
  rcases (RuleSet.Built.stackOk hn hI (.sort hs h)).columns (DifferentTexts.perm hp.symm hd) with e | ⟨e, -⟩
  · exact e
  · rw [e] at hp
    exact absurd hp.symm.eq_nil hne

/-- Three rules of the same feature, not in order -/
def mixedRules : RuleSet :=
  (RuleSet.init tellRs [member 2 [1, 1, 0], member 0 [1, 0, 0], member 1 [0, 0, 1]] true (RuleSet.blank true)).2

/-- The same in order -/
def orderedRules : RuleSet :=
  (RuleSet.init tellRs [member 0 [1, 0, 0], member 1 [0, 0, 1], member 2 [1, 1, 0]] true (RuleSet.blank true)).2

theorem mixedRules_mem {P : Member → Prop} (h0 : P (member 0 [1, 0, 0])) (h1 : P (member 1 [0, 0, 1]))
    (h2 : P (member 2 [1, 1, 0])) : ∀ m ∈ mixedRules.rules, P m := by
  have e : mixedRules.rules = [member 2 [1, 1, 0], member 0 [1, 0, 0], member 1 [0, 0, 1]] := rfl
  rw [e]
  simp only [List.forall_mem_cons, List.not_mem_nil, false_imp_iff, implies_true, and_true]
  exact ⟨h2, h0, h1⟩

/-- The hypotheses of the theorems above hold of it, and the order changes. -/
example : TextsTellApart tellRs ∧ mixedRules.rules ≠ [] ∧ (∀ m ∈ mixedRules.rules, NumericBounds m) ∧
    (∀ m ∈ mixedRules.rules, Sortable (decide (0 < mixedRules.names.length)) m) ∧
    (mixedRules.stacked = some (columnsOf tellRs mixedRules.rules) ∧ DifferentTexts tellRs mixedRules.rules) ∧
    (sort tellRs none false mixedRules).1 = .ok () ∧
    (sort tellRs none false mixedRules).2.stacked = some [("a", [1, 0, 0]), ("b", [0, 0, 1]), ("c", [1, 1, 0])] := by
  refine ⟨tellRs_texts, (fun e => by cases e), ?_, ?_, ⟨by decide +kernel, ?_⟩, by decide +kernel, by decide +kernel⟩
  · apply mixedRules_mem <;> unfold NumericBounds <;> decide +kernel
  · apply mixedRules_mem <;> unfold Sortable <;> decide +kernel
  · unfold DifferentTexts
    decide +kernel

example : mixedRules.rules.Perm orderedRules.rules ∧ (mixedRules.names = [] ↔ orderedRules.names = []) ∧
    (∀ a ∈ mixedRules.rules, ∀ b ∈ mixedRules.rules, SameSortKey tellRs (decide (0 < mixedRules.names.length)) a b → a = b) ∧
    (sort tellRs none false orderedRules).1 = .ok () := by
  refine ⟨?_, by decide +kernel, ?_, by decide +kernel⟩
  · exact (List.perm_append_comm (l₁ := [member 2 [1, 1, 0]]) (l₂ := [member 0 [1, 0, 0], member 1 [0, 0, 1]]))
  · apply mixedRules_mem <;> apply mixedRules_mem <;>
      first
      | exact fun _ => rfl
      | exact fun e => absurd e.2 (by decide +kernel)

example : 0 < 3 ∧ TextIgnoresIndexes tellRs ∧ Built tellRs (HasPoints 3) true mixedRules :=
  ⟨by decide, fun _ _ => rfl, .make (rules := [member 2 [1, 1, 0], member 0 [1, 0, 0], member 1 [0, 0, 1]])
    (mixedRules_mem (member_hasPoints 0 true false false) (member_hasPoints 1 false false true)
      (member_hasPoints 2 true true false)) rfl⟩

open Classical in
/-- **C27 (criterion).** `sort(criterion)` by an attribute which is a number for all rules orders them by this number, from the
smallest to the greatest, or the other way round in reverse; rules with the same number stay in their order.
Missing: attributes which are NaN (`C27_criterion_nan_false`). -/
theorem C27_criterion_partial {R : RsEnv} {a : String} {reverse : Bool} {s s' : RuleSet}
    (hx : ∀ m ∈ s.rules, ∃ x, HasNumber R a m x ∧ x ≠ .nan) (h : sort R (some a) reverse s = (.ok (), s')) :
    (s'.rules.Pairwise fun m m' => ∀ x y, HasNumber R a m x → HasNumber R a m' y →
      if reverse then value y ≤ value x else value x ≤ value y) ∧
    ∀ x, (s'.rules.filter fun m => HasNumber R a m x) = s.rules.filter fun m => HasNumber R a m x := by
  have e : s'.rules = s.rules.insertionSort (CriterionLe R a reverse) := by
    rcases sort_ok h with ⟨he, rfl⟩ | ⟨rules, hr, ⟨-, rfl⟩ | ⟨-, c, c', -, -, rfl⟩⟩
    · rw [he]
      rfl
    · exact sortedRules_criterion hx hr
    · exact sortedRules_criterion hx hr
  rw [e]
  constructor
  · refine (List.pairwise_insertionSort _ _).imp ?_
    intro m m' hle x y ex ey
    unfold CriterionLe at hle
    rwa [numberOf_eq ex, numberOf_eq ey] at hle
  · intro x
    apply insertionSort_stable
    intro m m' h1 h2
    have h1 := of_decide_eq_true h1
    have h2 := of_decide_eq_true h2
    unfold CriterionLe
    rw [numberOf_eq h1, numberOf_eq h2]
    simp

/-- By decreasing coverage; the first two have the same. -/
example : let s := (RuleSet.init tellRs [member 2 [0, 1, 0], member 0 [1, 0, 0], member 1 [1, 0, 1]] true (RuleSet.blank false)).2
    (∀ m ∈ s.rules, ∃ x, HasNumber tellRs "coverage" m x ∧ x ≠ .nan) ∧
      (sort tellRs (some "coverage") true s).1 = .ok () ∧
      (sort tellRs (some "coverage") true s).2.rules.map (fun m => m.rule.cond.bmins) =
        [some [.fin 1], some [.fin 2], some [.fin 0]] := by
  refine ⟨?_, by decide +kernel, by decide +kernel⟩
  intro m hm
  have hm : m ∈ [member 2 [0, 1, 0], member 0 [1, 0, 0], member 1 [1, 0, 1]] := hm
  simp only [List.mem_cons, List.not_mem_nil, or_false] at hm
  rcases hm with rfl | rfl | rfl <;> exact ⟨_, rfl, fun e => by cases e⟩

/-- **C27 (good and bad rules).** `sort("good")` puts the rules which have been marked as bad before the others, in reverse after them,
and keeps the order of the bad ones and that of the good ones. -/
theorem C27_good {R : RsEnv} {reverse : Bool} {s s' : RuleSet} (h : sort R (some "good") reverse s = (.ok (), s')) :
    s'.rules = (s.rules.filter fun m => m.rule.good = reverse) ++ s.rules.filter fun m => m.rule.good ≠ reverse := by
  have hg : ∀ m : Member, HasNumber R "good" m (.fin (if m.rule.good then 1 else 0)) := fun m => rfl
  obtain ⟨hp, hf⟩ := C27_criterion_partial (fun m _ => ⟨_, hg m, fun e => by cases e⟩) h
  have hf' : ∀ b, (s'.rules.filter fun m => m.rule.good = b) = s.rules.filter fun m => m.rule.good = b := by
    intro b
    have e := hf (.fin (if b then 1 else 0))
    have key : ∀ m : Member, (HasNumber R "good" m (.fin (if b then 1 else 0)) ↔ m.rule.good = b) := by
      intro m
      unfold HasNumber
      rw [hg m]
      cases m.rule.good <;> cases b <;> simp
    simpa only [key] using e
  have hs : ∀ l : List Member, (l.Pairwise fun m m' => ∀ x y, HasNumber R "good" m x → HasNumber R "good" m' y →
      if reverse then value y ≤ value x else value x ≤ value y) →
      l = (l.filter fun m => m.rule.good = reverse) ++ l.filter fun m => m.rule.good ≠ reverse := by
    intro l
    induction l with
    | nil => intro _; rfl
    | cons a l ih =>
      intro hl
      obtain ⟨h1, h2⟩ := List.pairwise_cons.1 hl
      by_cases ha : a.rule.good = reverse
      · simp only [List.filter_cons, ha, decide_true, if_true, ne_eq, not_true_eq_false, decide_false, Bool.false_eq_true, if_false,
          List.cons_append]
        rw [← ih h2]
      · have hall : ∀ m ∈ l, m.rule.good ≠ reverse := by
          intro m hm e
          have := h1 m hm _ _ (hg a) (hg m)
          revert ha e this
          cases a.rule.good <;> cases m.rule.good <;> cases reverse <;> simp [value]
        have e1 : (l.filter fun m => decide (m.rule.good = reverse)) = [] := by
          rw [List.filter_eq_nil_iff]
          intro m hm e
          exact hall m hm (of_decide_eq_true e)
        have e2 : (l.filter fun m => decide (m.rule.good ≠ reverse)) = l := by
          rw [List.filter_eq_self]
          intro m hm
          exact decide_eq_true (hall m hm)
        simp only [List.filter_cons, ha, decide_false, Bool.false_eq_true, if_false, ne_eq, not_false_eq_true, decide_true, if_true,
          e1, List.nil_append]
        rw [e2]
  have e := hs _ hp
  rw [hf' reverse] at e
  have hn : (s'.rules.filter fun m => m.rule.good ≠ reverse) = s.rules.filter fun m => m.rule.good ≠ reverse := by
    have := hf' (!reverse)
    have k : ∀ m : Member, (m.rule.good = !reverse) ↔ m.rule.good ≠ reverse := by
      intro m
      cases m.rule.good <;> cases reverse <;> simp
    simpa only [k] using this
  rw [hn] at e
  exact e

/-- A good rule, two bad ones and a good one -/
example : let m := fun (lo : Rat) (b : Bool) => (⟨.regression, { (member lo [1, 0, 0]).rule with good := b }⟩ : Member)
    let s := (RuleSet.init tellRs [m 2 true, m 0 false, m 1 false, m 3 true] true (RuleSet.blank false)).2
    (sort tellRs (some "good") true s).1 = .ok () ∧
      (sort tellRs (some "good") true s).2.rules.map (fun m => m.rule.cond.bmins) =
        [some [.fin 2], some [.fin 3], some [.fin 0], some [.fin 1]] := by decide +kernel

open Classical in
/-- **C27 (criterion which is a text).** `sort(criterion)` by an attribute which is a text for all rules (such as `sign`) orders them by this
text, or the other way round in reverse; rules with the same text stay in their order. -/
theorem C27_criterion_text {R : RsEnv} {a : String} {reverse : Bool} {s s' : RuleSet}
    (hx : ∀ m ∈ s.rules, ∃ t, HasText R a m t) (h : sort R (some a) reverse s = (.ok (), s')) :
    (s'.rules.Pairwise fun m m' => ∀ x y, HasText R a m x → HasText R a m' y → if reverse then y ≤ x else x ≤ y) ∧
    ∀ x, (s'.rules.filter fun m => HasText R a m x) = s.rules.filter fun m => HasText R a m x := by
  have e : s'.rules = s.rules.insertionSort (TextLe R a reverse) := by
    rcases sort_ok h with ⟨he, rfl⟩ | ⟨rules, hr, ⟨-, rfl⟩ | ⟨-, c, c', -, -, rfl⟩⟩
    · rw [he]
      rfl
    · exact sortedRules_text hx hr
    · exact sortedRules_text hx hr
  rw [e]
  constructor
  · refine (List.pairwise_insertionSort _ _).imp ?_
    intro m m' hle x y ex ey
    unfold TextLe at hle
    rwa [textOf_eq ex, textOf_eq ey] at hle
  · intro x
    apply insertionSort_stable
    intro m m' h1 h2
    have h1 := of_decide_eq_true h1
    have h2 := of_decide_eq_true h2
    unfold TextLe
    rw [textOf_eq h1, textOf_eq h2]
    simp

/-- A rule with this lower bound and this sign -/
def signed (lo : Rat) (t : String) : Member := ⟨.regression, { (member lo [1, 0, 0]).rule with sign := .str t }⟩

/-- The positive rules come first (`"+" < "-"`). -/
example : let s := (RuleSet.init tellRs [signed 2 "-", signed 0 "+", signed 1 "-", signed 3 "+"] true (RuleSet.blank false)).2
    (∀ m ∈ s.rules, ∃ t, HasText tellRs "sign" m t) ∧ (sort tellRs (some "sign") false s).1 = .ok () := by
  refine ⟨?_, by decide +kernel⟩
  intro m hm
  have hm : m ∈ [signed 2 "-", signed 0 "+", signed 1 "-", signed 3 "+"] := hm
  simp only [List.mem_cons, List.not_mem_nil, or_false] at hm
  rcases hm with rfl | rfl | rfl | rfl <;> exact ⟨_, rfl⟩

/-- **C27 (criterion which cannot be compared).** With several rules, when the attribute is not a number for all of them and not a
text for all of them (such as the criterion of rules some of which have not been evaluated), `sort(criterion)` raises `TypeError`
and leaves the ruleset as it is. -/
theorem C27_criterion_mixed {R : RsEnv} {a : String} {reverse : Bool} {s : RuleSet} (h2 : 2 ≤ s.rules.length)
    (hx : ∀ m ∈ s.rules, ∃ x, m.rule.getattr (R.ofKind m.kind) a = .ok x) (hn : ∃ m ∈ s.rules, ∀ x, ¬ HasNumber R a m x)
    (ht : ∃ m ∈ s.rules, ∀ t, ¬ HasText R a m t) : sort R (some a) reverse s = (.error .typeError, s) := by
  obtain ⟨keys, hk, hf⟩ := mapM_values hx
  have hlen : keys.length = s.rules.length := hf.length_eq.symm
  have hc : comparable keys = false := by
    have hnum : keys.all (fun a => match a with | .num _ => true | _ => false) = false := by
      obtain ⟨m, hm, hno⟩ := hn
      obtain ⟨x, hxk, hmx⟩ := forall₂_left hf hm
      rw [List.all_eq_false]
      refine ⟨x, hxk, ?_⟩
      cases x with
      | num q => exact absurd hmx (hno q)
      | _ => exact Bool.false_ne_true
    have htxt : keys.all (fun a => match a with | .str _ => true | _ => false) = false := by
      obtain ⟨m, hm, hno⟩ := ht
      obtain ⟨x, hxk, hmx⟩ := forall₂_left hf hm
      rw [List.all_eq_false]
      refine ⟨x, hxk, ?_⟩
      cases x with
      | str q => exact absurd hmx (hno q)
      | _ => exact Bool.false_ne_true
    match keys, hlen, hnum, htxt with
    | [], hl, _, _ => simp at hl; omega
    | [_], hl, _, _ => simp at hl; omega
    | _ :: _ :: _, _, hnum, htxt => exact Bool.or_eq_false_iff.2 ⟨hnum, htxt⟩
  have hs : sortedRules R (some a) reverse s = .error .typeError := by
    unfold sortedRules
    match hr : s.rules with
    | [] => rw [hr] at h2; simp at h2
    | m :: l =>
      obtain ⟨x, hmx⟩ := hx m (by rw [hr]; exact List.mem_cons_self)
      simp only [hmx]
      rw [← hr, hk]
      simp only [bind, Except.bind]
      unfold sortByCriterion
      rw [List.map_fst_zip hlen.le, hc]
      rfl
  unfold sort
  rw [Py.bind_run]
  simp only [Py.get_run]
  rw [if_neg (by omega), Py.bind_run, Py.ofExcept_run, hs]

/-- Two rules, one of which has not been evaluated -/
example : let s : RuleSet := { RuleSet.blank false with
      rules := [⟨.regression, { (member 0 [1, 0, 0]).rule with criterion := .num (.fin 1) }⟩, member 1 [1, 0, 0]] }
    2 ≤ s.rules.length ∧ (∀ m ∈ s.rules, ∃ x, m.rule.getattr (tellRs.ofKind m.kind) "criterion" = .ok x) ∧
      (∃ m ∈ s.rules, ∀ x, ¬ HasNumber tellRs "criterion" m x) ∧ ∃ m ∈ s.rules, ∀ t, ¬ HasText tellRs "criterion" m t := by
  refine ⟨le_refl _, ?_, ⟨member 1 [1, 0, 0], by simp, ?_⟩, ⟨member 1 [1, 0, 0], by simp, ?_⟩⟩
  · intro m hm
    simp only [List.mem_cons, List.not_mem_nil, or_false] at hm
    rcases hm with rfl | rfl <;> exact ⟨_, rfl⟩
  · intro x h
    cases h
  · intro x h
    cases h

/-- A rule on these columns -/
def onColumns (idx : List Int) (na : List String) : Member :=
  ⟨.regression, { (member 0 [1, 0, 0]).rule with
    cond := { (member 0 [1, 0, 0]).rule.cond with
      indexes := some idx, names := some na, bmins := some (idx.map fun _ => .fin 0), bmaxs := some (idx.map fun _ => .fin 1) } }⟩

/-- **C27 is false for indexes as numbers:** a rule on column 10 comes before a rule on column 2. -/
theorem C27_index_order_false :
    let s := { RuleSet.blank false with rules := [onColumns [2] [], onColumns [10] []] }
    (sort pythonRs none false s).1 = .ok () ∧
      (sort pythonRs none false s).2.rules.map (fun m => m.rule.cond.indexes) = [some [10], some [2]] := by
  decide +kernel

/-- **C27 is false for names in alphabetical order:** `"a b"` comes before `"a"`, since the text of the list goes on with a quote. -/
theorem C27_name_order_false :
    let s := { RuleSet.blank false with rules := [onColumns [0] ["a"], onColumns [1] ["a b"]], names := ["a", "a b"] }
    "a" < "a b" ∧ (sort pythonRs none false s).1 = .ok () ∧
      (sort pythonRs none false s).2.rules.map (fun m => m.rule.cond.names) = [some ["a b"], some ["a"]] := by
  decide +kernel

/-- **C27 is false with a NaN bound:** the result depends on the initial order. -/
theorem C27_nan_false :
    let m (x : Num) : Member := ⟨.regression, { (member 0 [1, 0, 0]).rule with
      cond := { (member 0 [1, 0, 0]).rule.cond with bmins := some [x] } }⟩
    let s (l : List Member) : RuleSet := { RuleSet.blank false with rules := l, names := ["a"] }
    let first (l : List Member) := (sort pythonRs none false (s l)).2.rules.map fun m => m.rule.cond.bmins
    first [m .nan, m (.fin 0)] = [some [.nan], some [.fin 0]] ∧ first [m (.fin 0), m .nan] = [some [.fin 0], some [.nan]] := by
  decide +kernel

/-- **C27 is false for rules without features:** `sort` raises `KeyError`. -/
theorem C27_no_feature_false :
    let s := { RuleSet.blank false with rules := [onColumns [2] [], onColumns [] []] }
    (sort pythonRs none false s).1 = .error .keyError := by
  decide +kernel

/-- **C27 is false when activations are to be stacked and none are yet:** `sort` raises `TypeError`, after the rules have been
reordered. -/
theorem C27_no_stack_false :
    let s := (append someRs (member 0 [1, 0, 0]) false (append someRs (member 2 [1, 1, 0]) false (RuleSet.blank true)).2).2
    s.stack = true ∧ s.rules.length = 2 ∧ s.names = ["a"] ∧
      (sort someRs none false s).1 = .error .typeError ∧
      (sort someRs none false s).2.rules.map (fun m => m.rule.cond.bmins) = [some [.fin 0], some [.fin 2]] := by
  decide +kernel

/-- **C27 is false with a criterion which is NaN for a rule:** nothing is moved, though 1 comes after 2. -/
theorem C27_criterion_nan_false :
    let m (x : Num) : Member := ⟨.regression, { (member 0 [1, 0, 0]).rule with criterion := .num x }⟩
    let s : RuleSet := { RuleSet.blank false with rules := [m (.fin 2), m .nan, m (.fin 1)] }
    (sort someRs (some "criterion") false s).1 = .ok () ∧
      (sort someRs (some "criterion") false s).2.rules.map (fun m => m.rule.criterion) =
        [.num (.fin 2), .num .nan, .num (.fin 1)] := by
  decide +kernel

/-! ## C34 -/

/-- The same features, bounds and prediction, as texts -/
def SameRule (R : RsEnv) (byName : Bool) (a b : Member) : Prop :=
  (if byName then a.rule.cond.names = b.rule.cond.names else a.rule.cond.indexes = b.rule.cond.indexes) ∧
    a.rule.cond.bmins = b.rule.cond.bmins ∧ a.rule.cond.bmaxs = b.rule.cond.bmaxs ∧
    ∃ p q, a.rule.getPrediction (R.ofKind a.kind) = .ok p ∧ b.rule.getPrediction (R.ofKind b.kind) = .ok q ∧
      R.strPred p = R.strPred q

/-- **C34.** `rule in ruleset` is true exactly when the ruleset has a rule with the same features (names if the ruleset has
names, indexes otherwise), bounds and text of prediction.
Missing: the text of the prediction is not the prediction (`C34_prediction_false`); the number 1 and the number 1.0, which have
different texts, are the same number in this model. -/
theorem C34_contains_partial {R : RsEnv} {s : RuleSet} {m : Member} {b : Bool} (hT : TextsTellApart R)
    (h : contains R s m = .ok b) :
    b = true ↔ ∃ m' ∈ s.rules, SameRule R (decide (0 < s.names.length)) m m' := by
  unfold contains at h
  simp only [bind, Except.bind] at h
  split at h
  · cases h
  rename_i l hl
  split at h
  · cases h
  rename_i t ht
  cases h
  replace hl := mapM_eq_ok hl
  have text : ∀ {m : Member} {t : String}, ruleText R (decide (s.names.length > 0)) m = .ok t →
      ∃ p, m.rule.getPrediction (R.ofKind m.kind) = .ok p ∧
        t = (if decide (s.names.length > 0) then R.strNames m.rule.cond.names else R.strIndexes m.rule.cond.indexes) ++
          R.strBounds m.rule.cond.bmins ++ R.strBounds m.rule.cond.bmaxs ++ R.strPred p := by
    intro m t h
    unfold ruleText at h
    simp only [bind, Except.bind] at h
    split at h
    · cases h
    rename_i p hp
    cases h
    exact ⟨p, hp, rfl⟩
  obtain ⟨p, hp, et⟩ := text ht
  have same : ∀ {m' : Member} {t' : String}, ruleText R (decide (s.names.length > 0)) m' = .ok t' →
      (t = t' ↔ SameRule R (decide (0 < s.names.length)) m m') := by
    intro m' t' h'
    obtain ⟨q, hq, et'⟩ := text h'
    rw [et, et']
    unfold SameRule
    constructor
    · intro e
      rw [String.append_assoc, String.append_assoc, String.append_assoc, String.append_assoc] at e
      have rest : ∀ {x y : String}, x ++ (R.strBounds m.rule.cond.bmins ++ (R.strBounds m.rule.cond.bmaxs ++ R.strPred p)) =
          y ++ (R.strBounds m'.rule.cond.bmins ++ (R.strBounds m'.rule.cond.bmaxs ++ R.strPred q)) →
          (R.strBounds m.rule.cond.bmins ++ (R.strBounds m.rule.cond.bmaxs ++ R.strPred p)) =
            (R.strBounds m'.rule.cond.bmins ++ (R.strBounds m'.rule.cond.bmaxs ++ R.strPred q)) →
          m.rule.cond.bmins = m'.rule.cond.bmins ∧ m.rule.cond.bmaxs = m'.rule.cond.bmaxs ∧ R.strPred p = R.strPred q := by
        intro x y _ e
        obtain ⟨e1, e⟩ := hT.2.2 _ _ _ _ e
        obtain ⟨e2, e⟩ := hT.2.2 _ _ _ _ e
        exact ⟨e1, e2, e⟩
      by_cases hn : s.names.length > 0
      · simp only [hn, decide_true, if_true] at e ⊢
        obtain ⟨e0, e'⟩ := hT.1 _ _ _ _ e
        obtain ⟨e1, e2, e3⟩ := rest e e'
        exact ⟨e0, e1, e2, p, q, hp, hq, e3⟩
      · simp only [hn, decide_false, Bool.false_eq_true, if_false] at e ⊢
        obtain ⟨e0, e'⟩ := hT.2.1 _ _ _ _ e
        obtain ⟨e1, e2, e3⟩ := rest e e'
        exact ⟨e0, e1, e2, p, q, hp, hq, e3⟩
    · rintro ⟨e0, e1, e2, p', q', hp', hq', e3⟩
      rw [hp] at hp'
      cases hp'
      rw [hq] at hq'
      cases hq'
      rw [e1, e2, e3]
      by_cases hn : s.names.length > 0
      · simp only [hn, decide_true, if_true] at e0 ⊢
        rw [e0]
      · simp only [hn, decide_false, Bool.false_eq_true, if_false] at e0 ⊢
        rw [e0]
  rw [decide_eq_true_eq]
  clear ht et hp
  generalize s.rules = rules at hl
  induction hl with
  | nil => simp
  | @cons m' t' rules l h1 _ ih =>
    rw [List.mem_cons, same h1]
    have ih : t ∈ l ↔ ∃ m' ∈ rules, SameRule R (decide (0 < s.names.length)) m m' := ih
    rw [ih]
    simp

/-- A rule is in a ruleset to which it has been added, and stays in it when other rules are added, as long as the ruleset goes on
having names or goes on having none. -/
theorem C34_monotone {R : RsEnv} {s s' : RuleSet} {m : Member} {b : Bool} (hT : TextsTellApart R)
    (hn : s'.names = [] ↔ s.names = []) (hsub : ∀ x ∈ s.rules, x ∈ s'.rules) (h : contains R s m = .ok true)
    (h' : contains R s' m = .ok b) : b = true := by
  obtain ⟨x, hx, hxm⟩ := (C34_contains_partial hT h).1 rfl
  refine (C34_contains_partial hT h').2 ⟨x, hsub x hx, ?_⟩
  have hd : decide (0 < s'.names.length) = decide (0 < s.names.length) := by
    by_cases e : s.names = []
    · rw [e, hn.2 e]
    · have e2 : s'.names ≠ [] := fun e2 => e (hn.1 e2)
      rw [decide_eq_true (List.length_pos_iff.2 e), decide_eq_true (List.length_pos_iff.2 e2)]
  rw [hd]
  exact hxm

/-- A rule which is in the list of rules is in the ruleset. -/
theorem C34_member {R : RsEnv} {s : RuleSet} {m : Member} {b : Bool} (hT : TextsTellApart R) (hm : m ∈ s.rules)
    (h : contains R s m = .ok b) : b = true := by
  refine (C34_contains_partial hT h).2 ⟨m, hm, ?_⟩
  have : ∃ t, ruleText R (decide (s.names.length > 0)) m = .ok t := by
    unfold contains at h
    simp only [bind, Except.bind] at h
    split at h
    · cases h
    split at h
    · cases h
    · rename_i t ht
      exact ⟨t, ht⟩
  obtain ⟨t, ht⟩ := this
  unfold ruleText at ht
  simp only [bind, Except.bind] at ht
  split at ht
  · cases ht
  rename_i p hp
  refine ⟨?_, rfl, rfl, p, p, hp, hp, rfl⟩
  split <;> rfl

/-- Another rule with the same bounds but another activation is in the ruleset, one with other bounds is not. -/
example : TextsTellApart tellRs ∧ contains tellRs mixedRules (member 1 [1, 1, 1]) = .ok true ∧
    contains tellRs mixedRules (member 3 [1, 1, 1]) = .ok false ∧ member 1 [0, 0, 1] ∈ mixedRules.rules :=
  ⟨tellRs_texts, by decide +kernel, by decide +kernel, .tail _ (.tail _ (.head _))⟩

/-- **C34 is false for a class called `1` and the number 1**, and whenever two predictions have the same text. -/
theorem C34_prediction_false {R : RsEnv} {s : RuleSet} {m m' : Member} {b : Bool} {p q : Option Label} (hT : TextsTellApart R)
    (hm : m' ∈ s.rules) (hn : m.rule.cond.names = m'.rule.cond.names) (hi : m.rule.cond.indexes = m'.rule.cond.indexes)
    (h1 : m.rule.cond.bmins = m'.rule.cond.bmins) (h2 : m.rule.cond.bmaxs = m'.rule.cond.bmaxs)
    (hp : m.rule.getPrediction (R.ofKind m.kind) = .ok p) (hq : m'.rule.getPrediction (R.ofKind m'.kind) = .ok q)
    (hs : R.strPred p = R.strPred q) (h : contains R s m = .ok b) : b = true := by
  refine (C34_contains_partial hT h).2 ⟨m', hm, ?_, h1, h2, p, q, hp, hq, hs⟩
  split
  · exact hn
  · exact hi

/-- The class `"1"` and the number 1 -/
example : let m : Member := ⟨.classification, VoteProps.voter 0 [1, 0, 0] (.text "1")⟩
    m.rule.getPrediction (tellRs.ofKind m.kind) = .ok (some (.text "1")) ∧
      (member 0 [1, 0, 0]).rule.getPrediction (tellRs.ofKind .regression) = .ok (some (.num (.fin 1))) ∧
      contains tellRs mixedRules m = .ok true :=
  ⟨rfl, rfl, by decide +kernel⟩

end Verif.RuleSetProps
