import Verif.SharedRulesLemmas
import Verif.FitProps

/-!
# Rulesets which share rules
-/

namespace Verif.SharedRulesProps

open Verif Spec SharedRules RuleSetProps

/-- All rulesets refer to rules which exist. -/
def Sound (w : World) : Prop := ∀ j, ∀ k ∈ held w j, k < w.rules.length

theorem held_some {w : World} {i : Nat} {o : Obj} (h : w.sets[i]? = some o) : held w i = o.refs := by
  simp [held, h]

theorem view_some {w : World} {i : Nat} {s : RuleSet} (h : view w i = some s) :
    ∃ o, w.sets[i]? = some o ∧ s = shown w.rules o := by
  obtain ⟨o, ho, e⟩ := Option.map_eq_some_iff.1 h
  exact ⟨o, ho, e.symm⟩

theorem shown_eq {rules : List Member} {s : RuleSet} {refs : List Nat} (h : membersOf rules refs = s.rules) :
    shown rules { rest := s, refs := refs } = s := by
  simp [shown, h]

/-- The run of `fit` on rulesets as values, when it does something -/
theorem value_fit {R : RsEnv} {y : List Label} {xs : Option Xs} {force : Bool} {kw : Rule.Kw} {s : RuleSet}
    (h1 : s.ruleType ≠ none) (h2 : kw.hasMethod = false) (h3 : nothingToFit xs s = false) :
    RuleSet.fit R y xs force kw s =
      (match RuleSet.eachRule R (fun E => Rule.fit E y xs force kw) s.rules with
      | (.error e, l) => (.error e, { s with rules := l })
      | (.ok _, l) =>
        let t : RuleSet := { s with rules := l }
        let p := (RuleSet.afterFit R (RuleSet.badRules l) xs.isSome >>= fun _ => RuleSet.calcTrainSetSize y) t
        (p.1.map fun _ => (RuleSet.badRules l).map (·.1), p.2)) := by
  unfold RuleSet.fit
  obtain ⟨k, hk⟩ := Option.ne_none_iff_exists'.1 h1
  rw [Py.bind_ok (a := k) (s' := s) (by
    unfold RuleSet.needType
    rw [Py.bind_ok (Py.get_run s)]
    simp [hk])]
  rw [if_neg (by simp [h2]), Py.bind_ok (Py.get_run s)]
  unfold nothingToFit at h3
  simp only [Bool.or_eq_false_iff, decide_eq_false_iff_not] at h3
  rw [if_neg (by rw [h3.1.1]; simp), if_neg h3.1.2, if_neg (by rw [h3.2]; simp)]
  rcases he : RuleSet.eachRule R (fun E => Rule.fit E y xs force kw) s.rules with ⟨a, l⟩
  have hf : RuleSet.forRules R (fun E => Rule.fit E y xs force kw) s = (a, { s with rules := l }) := by
    unfold RuleSet.forRules
    rw [he]
  cases a with
  | error e => rw [Py.bind_err hf]
  | ok u =>
    rw [Py.bind_ok hf, Py.bind_ok (Py.get_run _)]
    simp only
    rcases ha : RuleSet.afterFit R (RuleSet.badRules l) xs.isSome { s with rules := l } with ⟨b, t⟩
    cases b with
    | error e =>
      rw [Py.bind_err ha, Py.bind_err ha]
      rfl
    | ok u' =>
      rw [Py.bind_ok ha, Py.bind_ok ha]
      rfl

/-- **C61 (fit, partial).** `fit` of a ruleset whose rules are objects, which other rulesets can have as well, does to this ruleset what `fit`
does to a ruleset as a value, also when it raises.  Missing: rulesets which have a rule object twice, for which it is false (`C61_twice_false`). -/
theorem C61_fit_partial {R : RsEnv} {y : List Label} {xs : Option Xs} {force : Bool} {kw : Rule.Kw} {w : World} {i : Nat} {s : RuleSet}
    (hw : Sound w) (hi : view w i = some s) (hn : (held w i).Nodup) :
    (fit R y xs force kw i w).1 = (RuleSet.fit R y xs force kw s).1 ∧
      view (fit R y xs force kw i w).2 i = some (RuleSet.fit R y xs force kw s).2 := by
  obtain ⟨o, ho, rfl⟩ := view_some hi
  rw [held_some ho] at hn
  have hv : ValidRefs w.rules o.refs := fun k hk => hw i k (held_some ho ▸ hk)
  have hlt : i < w.sets.length := (List.getElem?_eq_some_iff.1 ho).1
  unfold fit
  simp only [ho]
  by_cases h1 : o.rest.ruleType = none
  · rw [if_pos h1]
    have : RuleSet.fit R y xs force kw (shown w.rules o) = (.error .valueError, shown w.rules o) := by
      unfold RuleSet.fit
      refine Py.bind_err ?_
      unfold RuleSet.needType
      rw [Py.bind_ok (Py.get_run _)]
      simp [shown, h1]
    rw [this]
    exact ⟨rfl, hi⟩
  rw [if_neg h1]
  obtain ⟨k, hk⟩ := Option.ne_none_iff_exists'.1 h1
  have hneed : RuleSet.needType (shown w.rules o) = (.ok k, shown w.rules o) := by
    unfold RuleSet.needType
    rw [Py.bind_ok (Py.get_run _)]
    simp [shown, hk]
  by_cases h2 : kw.hasMethod = true
  · rw [if_pos h2]
    have : RuleSet.fit R y xs force kw (shown w.rules o) = (.error .indexError, shown w.rules o) := by
      unfold RuleSet.fit
      rw [Py.bind_ok hneed, if_pos h2]
      rfl
    rw [this]
    exact ⟨rfl, hi⟩
  rw [if_neg h2]
  by_cases h3 : nothingToFit xs (shown w.rules o) = true
  · rw [if_pos h3]
    have : RuleSet.fit R y xs force kw (shown w.rules o) = (.ok [], shown w.rules o) := by
      unfold RuleSet.fit
      rw [Py.bind_ok hneed, if_neg h2, Py.bind_ok (Py.get_run _)]
      unfold nothingToFit at h3
      simp only [Bool.or_eq_true, decide_eq_true_eq] at h3
      by_cases c1 : xs.any (fun x => x.length = 0) = true
      · rw [if_pos c1]; rfl
      rw [if_neg c1]
      by_cases c2 : (shown w.rules o).rules.length = 0
      · rw [if_pos c2]; rfl
      rw [if_neg c2, if_pos]
      · rfl
      · rcases h3 with (h3 | h3) | h3
        · exact absurd h3 c1
        · exact absurd h3 c2
        · exact h3
    rw [this]
    exact ⟨rfl, hi⟩
  rw [if_neg h3, value_fit (by simpa [shown] using h1) (by simpa using h2) (by simpa using h3)]
  obtain ⟨e1, e2⟩ := eachRef_spec (R := R) (f := fun E => Rule.fit E y xs force kw) hn w.rules hv
  rcases he : eachRef R (fun E => Rule.fit E y xs force kw) o.refs w.rules with ⟨a, rules⟩
  rw [he] at e1 e2
  rw [show (shown w.rules o).rules = membersOf w.rules o.refs from rfl, ← e1]
  cases a with
  | error e =>
    refine ⟨rfl, ?_⟩
    unfold view
    simp only [ho]
    rfl
  | ok u =>
    simp only [finishFit]
    refine ⟨rfl, ?_⟩
    unfold view
    simp only
    rw [List.getElem?_set_self hlt]
    have hr := (refsAfter_spec (R := R) (rules := rules) (o := o) (fun k hk => e2.symm ▸ hv k hk) xs.isSome y).1
    refine congrArg some ?_
    exact shown_eq hr

/-- The rules and the other rulesets after `fit` -/
theorem fit_rest {R : RsEnv} {y : List Label} {xs : Option Xs} {force : Bool} {kw : Rule.Kw} {w : World} {i : Nat} :
    (∀ j, j ≠ i → (fit R y xs force kw i w).2.sets[j]? = w.sets[j]?) ∧
      ∀ k, k ∉ held w i → (fit R y xs force kw i w).2.rules[k]? = w.rules[k]? := by
  unfold fit
  cases ho : w.sets[i]? with
  | none => exact ⟨fun _ _ => rfl, fun _ _ => rfl⟩
  | some o =>
    simp only
    split
    · exact ⟨fun _ _ => rfl, fun _ _ => rfl⟩
    split
    · exact ⟨fun _ _ => rfl, fun _ _ => rfl⟩
    split
    · exact ⟨fun _ _ => rfl, fun _ _ => rfl⟩
    rw [held_some ho]
    rcases he : eachRef R (fun E => Rule.fit E y xs force kw) o.refs w.rules with ⟨a, rules⟩
    have hr : ∀ k, k ∉ o.refs → rules[k]? = w.rules[k]? := fun k hk => by
      have := eachRef_other (R := R) (f := fun E => Rule.fit E y xs force kw) hk w.rules
      rw [he] at this
      exact this
    cases a with
    | error e => exact ⟨fun _ _ => rfl, hr⟩
    | ok u => exact ⟨fun j hj => List.getElem?_set_ne (Ne.symm hj), hr⟩

/-- **C61 (rulesets without a common rule).** `fit` of a ruleset, raising or not, changes nothing of a ruleset which has none of its rules. -/
theorem C61_disjoint {R : RsEnv} {y : List Label} {xs : Option Xs} {force : Bool} {kw : Rule.Kw} {w : World} {i j : Nat}
    (hj : j ≠ i) (hd : ∀ k ∈ held w j, k ∉ held w i) : view (fit R y xs force kw i w).2 j = view w j := by
  obtain ⟨h1, h2⟩ := fit_rest (R := R) (y := y) (xs := xs) (force := force) (kw := kw) (w := w) (i := i)
  unfold view
  rw [h1 j hj]
  cases ho : w.sets[j]? with
  | none => rfl
  | some o =>
    rw [held_some ho] at hd
    simp only [Option.map_some, shown]
    rw [membersOf_congr fun k hk => h2 k (hd k hk)]

theorem membersOf_get {rules : List Member} {refs : List Nat} (h : ValidRefs rules refs) (p : Nat) :
    (membersOf rules refs)[p]? = (refs[p]?).bind fun k => rules[k]? := by
  induction refs generalizing p with
  | nil => simp [membersOf]
  | cons k t ih =>
    have hk := h k (by simp)
    rw [membersOf_cons (List.getElem?_eq_getElem hk)]
    cases p with
    | zero => simp [List.getElem?_eq_getElem hk]
    | succ p => simpa using ih (fun j hj => h j (List.mem_cons_of_mem _ hj)) p

theorem eachDone_unique {R : RsEnv} {f : Env → Py Rule Unit} {a b c : List Member} (hb : EachDone R f a b) (hc : EachDone R f a c) : b = c := by
  induction hb generalizing c with
  | nil => cases hc; rfl
  | @cons m m1 _ _ hm _ ih =>
    cases hc with
    | @cons _ m2 _ _ hm' hc =>
      rw [ih hc]
      have : m1 = m2 := by
        obtain ⟨k1, r1⟩ := m1
        obtain ⟨k2, r2⟩ := m2
        have e := hm.2.symm.trans hm'.2
        simp only [Prod.mk.injEq, true_and] at e
        have e1 := hm.1
        have e2 := hm'.1
        simp only at e1 e2
        rw [e, e1, e2]
      rw [this]

/-- **C61 (rulesets with common rules).** After a `fit` of a ruleset which did something, with `l` the list of its rules after having been
fitted: every other ruleset shows the rules which it has in common with the first one as they are in `l`, also those which the first one has
dropped, and all the rest of it is unchanged. -/
theorem C61_shared {R : RsEnv} {y : List Label} {xs : Option Xs} {force : Bool} {kw : Rule.Kw} {w : World} {i : Nat} {s : RuleSet}
    {dropped : List Member} (hw : Sound w) (hi : view w i = some s) (hn : (held w i).Nodup) (hx : Fits s xs) (hne : s.rules ≠ [])
    (h : (fit R y xs force kw i w).1 = .ok dropped) :
    ∃ l, EachDone R (fun E => Rule.fit E y xs force kw) s.rules l ∧ dropped = l.filter (fun m => !m.rule.good) ∧
      ∀ (j : Nat) (t : RuleSet), j ≠ i → view w j = some t → ∃ t' : RuleSet, view (fit R y xs force kw i w).2 j = some t' ∧ t' = { t with rules := t'.rules } ∧
        ∀ p k : Nat, (held w j)[p]? = some k →
          (∀ q : Nat, (held w i)[q]? = some k → t'.rules[p]? = l[q]?) ∧ (k ∉ held w i → t'.rules[p]? = t.rules[p]?) := by
  obtain ⟨h1, h2⟩ := fit_rest (R := R) (y := y) (xs := xs) (force := force) (kw := kw) (w := w) (i := i)
  obtain ⟨g1, -⟩ := C61_fit_partial (R := R) (y := y) (xs := xs) (force := force) (kw := kw) hw hi hn
  obtain ⟨o, ho, rfl⟩ := view_some hi
  rw [held_some ho] at hn h2 ⊢
  have hv : ValidRefs w.rules o.refs := fun k hk => hw i k (held_some ho ▸ hk)
  rcases hf : RuleSet.fit R y xs force kw (shown w.rules o) with ⟨a, s'⟩
  rw [hf, h] at g1
  obtain rfl : .ok dropped = a := g1
  obtain ⟨l, e1, e2, -⟩ := RuleSetProps.fit_through hx hne hf
  refine ⟨l, e1, e2, fun j t hj ht => ?_⟩
  obtain ⟨o', ho', rfl⟩ := view_some ht
  have hv' : ValidRefs w.rules o'.refs := fun k hk => hw j k (held_some ho' ▸ hk)
  have hrules : membersOf (fit R y xs force kw i w).2.rules o.refs = l ∧ (fit R y xs force kw i w).2.rules.length = w.rules.length := by
    have hnt : nothingToFit xs (shown w.rules o) = false := by
      unfold nothingToFit
      obtain ⟨hx1, hx2⟩ := hx
      simp only [Bool.or_eq_false_iff, decide_eq_false_iff_not]
      refine ⟨⟨?_, fun e => hne (List.length_eq_zero_iff.1 e)⟩, ?_⟩
      · cases xs with
        | none => rfl
        | some x => simpa using hx1 x rfl
      · cases xs with
        | some x => simp
        | none =>
          have := hx2 rfl
          simpa using this
    unfold fit at h ⊢
    simp only [ho] at h ⊢
    obtain ⟨d1, d2⟩ := eachRef_spec (R := R) (f := fun E => Rule.fit E y xs force kw) hn w.rules hv
    split at h
    · cases h
    rename_i c1
    split at h
    · cases h
    rename_i c2
    rw [if_neg c1, if_neg c2, hnt]
    rw [hnt] at h
    simp only [Bool.false_eq_true, if_false] at h ⊢
    rcases he : eachRef R (fun E => Rule.fit E y xs force kw) o.refs w.rules with ⟨b, rules⟩
    rw [he] at h d1 d2
    cases b with
    | error e => cases h
    | ok u =>
      simp only [finishFit]
      refine ⟨?_, d2⟩
      have e3 := RuleSet.eachRule_ok (d1.symm)
      exact eachDone_unique e3 e1
  obtain ⟨hr1, hr2⟩ := hrules
  refine ⟨shown (fit R y xs force kw i w).2.rules o', ?_, rfl, ?_⟩
  · unfold view
    rw [h1 j hj, ho']
    rfl
  · intro p k hp
    rw [held_some ho'] at hp
    have e3 : (shown (fit R y xs force kw i w).2.rules o').rules[p]? = (fit R y xs force kw i w).2.rules[k]? := by
      show (membersOf _ _)[p]? = _
      rw [membersOf_get (fun k hk => hr2.symm ▸ hv' k hk), hp]
      rfl
    refine ⟨fun q hq => ?_, fun hk => ?_⟩
    · rw [e3, ← hr1, membersOf_get (fun k hk => hr2.symm ▸ hv k hk), hq]
      rfl
    · rw [e3, h2 k hk]
      show _ = (membersOf _ _)[p]?
      rw [membersOf_get hv', hp]
      rfl

/-- **C61 (calls on a rule).** A call on a rule object, raising or not, shows in the rulesets which have it, where nothing but this rule is
changed. -/
theorem C61_rule {R : RsEnv} {f : Env → Py Rule Unit} {w : World} {k : Nat} {m : Member} (hw : Sound w) (hk : w.rules[k]? = some m)
    {j : Nat} {t : RuleSet} (ht : view w j = some t) :
    ∃ t' : RuleSet, view (call R f k w).2 j = some t' ∧ t' = { t with rules := t'.rules } ∧ t'.rules.length = t.rules.length ∧
      ∀ p k' : Nat, (held w j)[p]? = some k' → t'.rules[p]? =
        if k' = k then some ({ kind := m.kind, rule := (f (R.ofKind m.kind) m.rule).2 } : Member) else t.rules[p]? := by
  obtain ⟨o, ho, rfl⟩ := view_some ht
  have hv : ValidRefs w.rules o.refs := fun k hk => hw j k (held_some ho ▸ hk)
  have hc : (call R f k w).2 = { w with rules := w.rules.set k { kind := m.kind, rule := (f (R.ofKind m.kind) m.rule).2 } } := by
    unfold call onRef
    rw [hk]
    rfl
  have hlt := (List.getElem?_eq_some_iff.1 hk).1
  rw [hc]
  have hv' : ValidRefs (w.rules.set k { kind := m.kind, rule := (f (R.ofKind m.kind) m.rule).2 }) o.refs :=
    fun j hj => by rw [List.length_set]; exact hv j hj
  refine ⟨shown (w.rules.set k { kind := m.kind, rule := (f (R.ofKind m.kind) m.rule).2 }) o, ?_, rfl, ?_, ?_⟩
  · unfold view
    simp only [ho]
    rfl
  · show (membersOf _ _).length = (membersOf _ _).length
    rw [membersOf_length hv, membersOf_length hv']
  · intro p k' hp
    rw [held_some ho] at hp
    show (membersOf _ _)[p]? = if k' = k then _ else (membersOf _ _)[p]?
    rw [membersOf_get hv', membersOf_get hv, hp]
    simp only [Option.bind_some]
    by_cases e : k' = k
    · rw [if_pos e, e, List.getElem?_set_self hlt]
    · rw [if_neg e, List.getElem?_set_ne (Ne.symm e)]

/-- **C61 (adding).** `+=` of a rule or of a ruleset, raising or not, does to the ruleset what it does to a ruleset as a value, and changes no
other ruleset, whatever rules they have in common. -/
theorem C61_add {R : RsEnv} {w : World} {i : Nat} {s : RuleSet} (hw : Sound w) (hi : view w i = some s) :
    (∀ k m, w.rules[k]? = some m → (iaddRule R i k w).1 = (RuleSet.iaddRule R m s).1 ∧
      view (iaddRule R i k w).2 i = some (RuleSet.iaddRule R m s).2 ∧ ∀ j, j ≠ i → view (iaddRule R i k w).2 j = view w j) ∧
    ∀ k t, view w k = some t → (iaddSet R i k w).1 = (RuleSet.iaddSet R t s).1 ∧
      view (iaddSet R i k w).2 i = some (RuleSet.iaddSet R t s).2 ∧ ∀ j, j ≠ i → view (iaddSet R i k w).2 j = view w j := by
  obtain ⟨o, ho, rfl⟩ := view_some hi
  have hv : ValidRefs w.rules o.refs := fun k hk => hw i k (held_some ho ▸ hk)
  have hlt : i < w.sets.length := (List.getElem?_eq_some_iff.1 ho).1
  have hlen : (shown w.rules o).rules.length = o.refs.length := membersOf_length hv
  refine ⟨fun k m hk => ?_, fun k t ht => ?_⟩
  · have e : iaddRule R i k w = ((RuleSet.iaddRule R m (shown w.rules o)).1, { w with sets := w.sets.set i (
        { rest := (RuleSet.iaddRule R m (shown w.rules o)).2,
          refs := (o.refs ++ [k]).take (RuleSet.iaddRule R m (shown w.rules o)).2.rules.length } : Obj) }) := by
      unfold iaddRule
      rw [ho, hk]
    rw [e]
    refine ⟨rfl, ?_, fun j hj => ?_⟩
    · unfold view
      simp only
      rw [List.getElem?_set_self hlt]
      simp only [Option.map_some, shown]
      have hv' : ValidRefs w.rules (o.refs ++ [k]) := by
        intro j hj
        rcases List.mem_append.1 hj with hj | hj
        · exact hv j hj
        · rw [List.mem_singleton.1 hj]
          exact (List.getElem?_eq_some_iff.1 hk).1
      have hm : membersOf w.rules (o.refs ++ [k]) = (shown w.rules o).rules ++ [m] := by
        rw [membersOf_append, membersOf_cons hk]
        rfl
      have hr : membersOf w.rules ((o.refs ++ [k]).take (RuleSet.iaddRule R m (shown w.rules o)).2.rules.length) =
          (RuleSet.iaddRule R m (shown w.rules o)).2.rules := by
        rw [membersOf_take hv', hm]
        rcases iaddRule_rules (R := R) m (shown w.rules o) with h | h <;> rw [h]
        · exact List.take_left
        · exact List.take_length
      unfold shown at hr
      rw [hr]
    · unfold view
      simp only
      rw [List.getElem?_set_ne (Ne.symm hj)]
  · obtain ⟨o', ho', rfl⟩ := view_some ht
    have hv2 : ValidRefs w.rules o'.refs := fun j hj => hw k j (held_some ho' ▸ hj)
    have e : iaddSet R i k w = ((RuleSet.iaddSet R (shown w.rules o') (shown w.rules o)).1, { w with sets := w.sets.set i (
        { rest := (RuleSet.iaddSet R (shown w.rules o') (shown w.rules o)).2,
          refs := (o.refs ++ o'.refs).take (RuleSet.iaddSet R (shown w.rules o') (shown w.rules o)).2.rules.length } : Obj) }) := by
      unfold iaddSet
      rw [ho, ho']
    rw [e]
    refine ⟨rfl, ?_, fun j hj => ?_⟩
    · unfold view
      simp only
      rw [List.getElem?_set_self hlt]
      simp only [Option.map_some, shown]
      have hv' : ValidRefs w.rules (o.refs ++ o'.refs) := by
        intro j hj
        rcases List.mem_append.1 hj with hj | hj
        · exact hv j hj
        · exact hv2 j hj
      have hm : membersOf w.rules (o.refs ++ o'.refs) = (shown w.rules o).rules ++ (shown w.rules o').rules := membersOf_append ..
      have hr : membersOf w.rules ((o.refs ++ o'.refs).take (RuleSet.iaddSet R (shown w.rules o') (shown w.rules o)).2.rules.length) =
          (RuleSet.iaddSet R (shown w.rules o') (shown w.rules o)).2.rules := by
        rw [membersOf_take hv', hm]
        rcases iaddSet_rules (R := R) (shown w.rules o') (shown w.rules o) with h | h <;> rw [h]
        · exact List.take_left
        · exact List.take_length
      unfold shown at hr
      rw [hr]
    · unfold view
      simp only
      rw [List.getElem?_set_ne (Ne.symm hj)]

/-- **C61 (making rulesets).** Making a ruleset of given rules, as slices and `+` do, raising or not, changes none of the rulesets which
exist, if the setting `all_features_indexes` is empty; the new ruleset is the one which is made of rules as values. -/
theorem C61_make {R : RsEnv} {w : World} {refs : List Nat} {compute stack : Bool} (hR : R.allIndexes = [])
    (hv : ∀ k ∈ refs, k < w.rules.length) :
    (∀ j, j < w.sets.length → view (make R refs compute stack w).2 j = view w j) ∧
      (∀ s, RuleSet.make R (refs.filterMap fun k => w.rules[k]?) compute stack = .ok s →
        (make R refs compute stack w).1 = .ok () ∧ view (make R refs compute stack w).2 w.sets.length = some s) ∧
      ∀ e, RuleSet.make R (refs.filterMap fun k => w.rules[k]?) compute stack = .error e → (make R refs compute stack w).1 = .error e := by
  obtain ⟨⟨n, h1⟩, h2⟩ := init_rules (R := R) hR (membersOf w.rules refs) compute stack
  unfold RuleSet.make
  rw [show (refs.filterMap fun k => w.rules[k]?) = membersOf w.rules refs from rfl]
  rcases hp : RuleSet.init R (membersOf w.rules refs) compute (RuleSet.blank stack) with ⟨a, s'⟩
  rw [hp] at h1 h2
  have hs : (refs.zip s'.rules).foldl (fun l q => l.set q.1 q.2) w.rules = w.rules := by
    rw [show s'.rules = _ from h1]
    exact setAll_same hv
  cases a with
  | error e =>
    have hm : make R refs compute stack w = (.error e, { w with rules := w.rules }) := by
      unfold make
      simp only [hp, hs]
    rw [hm]
    exact ⟨fun _ _ => rfl, (fun s h => by cases h), (fun e' h => by cases h; rfl)⟩
  | ok u =>
    have hm : make R refs compute stack w = (.ok (), { rules := w.rules, sets := w.sets ++ [{ rest := s', refs := refs }] }) := by
      unfold make
      simp only [hp, hs]
    rw [hm]
    refine ⟨fun j hj => ?_, fun s h => ?_, fun e h => by cases h⟩
    · unfold view
      simp only
      rw [List.getElem?_append_left hj]
    · cases h
      refine ⟨rfl, ?_⟩
      unfold view
      simp only [List.getElem?_concat_length, Option.map_some]
      exact congrArg some (shown_eq (h2 rfl).symm)

/-! ## Examples -/

/-- A ruleset of two rules, and one of the second of them, as a slice `s[1:]` is -/
def start : World :=
  (make someRs [1] true false (make someRs [0, 1] true false ⟨[member 0 [1, 1, 1], member 1 [0, 0, 1], member 2 [1, 1, 0]], []⟩).2).2

theorem start_sound : Sound start := by
  intro j
  match j with
  | 0 => decide
  | 1 => decide
  | j + 2 => intro k hk; cases hk

/-- After a `fit` of the first one on four rows -/
def fitted : World := (fit someRs someY (some RuleProps.someXs) false {} 0 start).2

/-- The hypotheses of `C61_make`: a slice of the first ruleset -/
example : someRs.allIndexes = [] ∧ (∀ k ∈ [0, 1], k < start.rules.length) ∧
    (RuleSet.make someRs ([0, 1].filterMap fun k => start.rules[k]?) true false).toOption.map (fun s => s.act) = some (some [1, 1, 1]) := by
  refine ⟨rfl, by decide, by decide +kernel⟩

/-- Three rows -/
def threeXs : Xs := .arr ⟨1, [[.fin 1], [.fin 0], [.fin (3 / 2)]]⟩

/-- Four rows where the second rule is rare -/
def rareXs : Xs := .arr ⟨1, [[.fin 0], [.fin 0], [.fin (1 / 2)], [.fin 1]]⟩

/-- The hypotheses of `C61_fit_partial` and `C61_shared` -/
example : (∃ s, view start 1 = some s ∧ s.rules ≠ [] ∧ Fits s (some RuleProps.someXs)) ∧ Sound start ∧ (held start 1).Nodup ∧
    Except.isOk (fit someRs someY (some RuleProps.someXs) false {} 1 start).1 = true ∧ 1 ∈ held start 0 :=
  ⟨⟨_, rfl, by decide, ⟨fun x e => by cases e; decide, fun e => by cases e⟩⟩, start_sound, by decide, by decide +kernel, by decide⟩

/-- The hypotheses of `C61_disjoint` -/
example : let w := (make someRs [2] true false start).2
    (∀ k ∈ held w 2, k ∉ held w 0) ∧ (view w 2).map (fun s => s.act) = some (some [1, 1, 0]) ∧ Except.isOk (fit someRs someY (some RuleProps.someXs) false {} 0 w).1 = true := by
  decide +kernel

/-- The hypotheses of `C61_rule`: a call on the rule which both rulesets have -/
example : Sound start ∧ (∃ m, start.rules[1]? = some m) ∧
    (view (call someRs (fun E => Rule.fit E someY (some RuleProps.someXs) false {}) 1 start).2 0).map (fun s => (s.act, s.rules.map fun m => m.rule.act)) =
      some (some [1, 1, 1], [some [1, 1, 1], some [0, 1, 1, 0]]) :=
  ⟨start_sound, ⟨_, rfl⟩, by decide +kernel⟩

/-- The hypotheses of `C61_add`: `s += rule` for a ruleset and a rule of its own, and `s += other` -/
example : Sound start ∧ (∃ s, view start 0 = some s) ∧ (∃ m, start.rules[1]? = some m) ∧ (∃ t, view start 1 = some t) ∧
    held (iaddRule someRs 1 2 start).2 1 = [1, 2] ∧ held (iaddSet someRs 1 0 start).2 1 = [1, 0, 1] :=
  ⟨start_sound, ⟨_, rfl⟩, ⟨_, rfl⟩, ⟨_, rfl⟩, by decide +kernel, by decide +kernel⟩

/-- **C61 is false for the activation of a ruleset:** a ruleset is fitted on four rows; then a slice of it is fitted on three rows. The ruleset
still has its activation of four points, while one of its rules has three: the activation is not that of its rules any more. -/
theorem C61_slice_false :
    let w := (fit someRs someY (some RuleProps.someXs) false {} 0 start).2
    let w' := (fit someRs (someY.take 3) (some threeXs) false {} 1 w).2
    (view w 0).map (fun s => (s.act, s.rules.map fun m => m.rule.act)) = some (some [1, 1, 1, 1], [some [1, 1, 1, 1], some [0, 1, 1, 0]]) ∧
      (view w' 0).map (fun s => (s.act, s.rules.map fun m => m.rule.act)) = some (some [1, 1, 1, 1], [some [1, 1, 1, 1], some [1, 0, 1]]) ∧
      (view w' 1).map (fun s => s.act) = some (some [1, 0, 1]) :=
  ⟨by decide +kernel, by decide +kernel, by decide +kernel⟩

/-- **C61 is false for the dropping of bad rules:** a slice of a fitted ruleset is fitted on other data, where its rule is bad and dropped. The
ruleset keeps this rule, which is bad now, and a `fit` without features does not drop it. -/
theorem C61_bad_false :
    let w := (fit someRs someY (some RuleProps.someXs) false {} 0 start).2
    let p := fit someRs someY (some rareXs) false {} 1 w
    let q := fit someRs someY none false {} 0 p.2
    (view w 0).map (fun s => s.rules.map fun m => m.rule.good) = some [true, true] ∧
      p.1.toOption.map (fun d => d.length) = some 1 ∧ (view p.2 1).map (fun s => s.rules.length) = some 0 ∧
      (view p.2 0).map (fun s => s.rules.map fun m => m.rule.good) = some [true, false] ∧
      q.1.toOption.map (fun d => d.length) = some 0 ∧ (view q.2 0).map (fun s => s.rules.map fun m => m.rule.good) = some [true, false] :=
  ⟨by decide +kernel, by decide +kernel, by decide +kernel, by decide +kernel, by decide +kernel, by decide +kernel⟩

end Verif.SharedRulesProps
