import Verif.TextDemo
import Verif.EvalLemmas
import Verif.LeaveLemmas

/-!
# Properties of rulesets: which rules fit and eval keep
-/

namespace Verif.RuleSetProps

open Verif Vote Spec RuleSet

/-! ## Lemmas -/

theorem condEq_symm {H : Cond.Hasher} {a b : Cond} (h : Cond.eq H a b = .ok true) : Cond.eq H b a = .ok true := by
  unfold Cond.eq at h ⊢
  simp only [bind, Except.bind] at h ⊢
  cases ha : a.hash H with
  | error e => rw [ha] at h; cases h
  | ok x =>
    cases hb : b.hash H with
    | error e => rw [ha, hb] at h; cases h
    | ok y =>
      rw [ha, hb] at h
      simp only [Except.ok.injEq, decide_eq_true_eq] at h ⊢
      exact h.symm

theorem eachDone_cond {R : RsEnv} {f : Env → Py Rule Unit} (hf : ∀ E, Rule.Leaves Rule.cond (f E)) {l l' : List Member}
    (h : EachDone R f l l') : l'.map (fun m => m.rule.cond) = l.map fun m => m.rule.cond := by
  induction h with
  | nil => rfl
  | @cons m m' l l' h _ ih =>
    have := hf (R.ofKind m.kind) m.rule
    rw [h.2] at this
    rw [List.map_cons, List.map_cons, ih, this]

open Classical in
/-- Without equal rules, the rules which stay are the good ones. -/
theorem stays_different {H : Cond.Hasher} {l : List Member} (hd : DifferentRules H l) :
    (l.filter fun m => Stays H l m) = l.filter fun m => m.rule.good := by
  apply List.filter_congr
  intro m hm
  cases hg : m.rule.good with
  | false => simp [Stays, hg]
  | true =>
    rw [decide_eq_true_eq]
    refine ⟨hg, fun d hdm hb he => ?_⟩
    unfold DifferentRules at hd
    rw [List.pairwise_iff_getElem] at hd
    obtain ⟨i, hi, rfl⟩ := List.getElem_of_mem hm
    obtain ⟨j, hj, rfl⟩ := List.getElem_of_mem hdm
    rcases lt_trichotomy i j with h | h | h
    · exact hd i j hi hj h he
    · subst h
      rw [hg] at hb
      cases hb
    · exact hd j i hj hi h (condEq_symm he)

theorem different_map {H : Cond.Hasher} {l l' : List Member}
    (h : l'.map (fun m => m.rule.cond) = l.map fun m => m.rule.cond) (hd : DifferentRules H l) : DifferentRules H l' := by
  unfold DifferentRules at *
  have e : ∀ l : List Member, (l.Pairwise fun a b => Cond.eq H a.rule.cond b.rule.cond ≠ .ok true) ↔
      (l.map fun m => m.rule.cond).Pairwise fun a b => Cond.eq H a b ≠ .ok true := fun l => by rw [List.pairwise_map]
  rw [e] at hd ⊢
  rwa [h]

open Classical in
theorem stays_none {H : Cond.Hasher} {l : List Member} (h : badRules l = []) : l = l.filter fun m => Stays H l m := by
  have hg : ∀ m ∈ l, m.rule.good = true := by
    have := badRules_fst l
    rw [h, List.map_nil] at this
    have := (List.filter_eq_nil_iff.1 this.symm)
    simpa using this
  symm
  rw [List.filter_eq_self]
  intro m hm
  rw [decide_eq_true_eq]
  refine ⟨hg m hm, fun d hd hb => ?_⟩
  rw [hg d hd] at hb
  cases hb

/-! ## fit -/

/-- `fit` does something: it is given features which are not empty, or some rule is not fitted yet. -/
def Fits (s : RuleSet) (xs : Option Xs) : Prop :=
  (∀ x, xs = some x → x.length ≠ 0) ∧ (xs = none → ∃ m ∈ s.rules, m.rule.fitted = false)

open Classical in
/-- What `fit` does when it does something -/
theorem fit_through {R : RsEnv} {y : List Label} {xs : Option Xs} {force : Bool} {kw : Rule.Kw} {s s' : RuleSet}
    {dropped : List Member} (hx : Fits s xs) (hne : s.rules ≠ []) (h : fit R y xs force kw s = (.ok dropped, s')) :
    ∃ l, EachDone R (fun E => Rule.fit E y xs force kw) s.rules l ∧ dropped = l.filter (fun m => !m.rule.good) ∧
      s'.rules = (l.filter fun m => Stays R.hasher l m) ∧
      AfterFit R { s with rules := l } (decide (dropped ≠ [])) xs.isSome s' := by
  rcases fit_ok h with ⟨-, -, h | h | ⟨h, h'⟩⟩ | ⟨l, s1, hl, ha, rfl, rfl⟩
  · rw [Option.any_eq_true] at h
    obtain ⟨x, hx1, hx2⟩ := h
    exact absurd (by simpa using hx2) (hx.1 x hx1)
  · exact absurd h hne
  · obtain ⟨m, hm, hf⟩ := hx.2 h
    rw [h' m hm] at hf
    cases hf
  · refine ⟨l, hl, badRules_fst l, ?_, ?_⟩
    · rcases (afterFit_ok (s := { s with rules := l }) ha).2 with ⟨hb, hr, -, -⟩ | ⟨hk, -, -⟩
      · show s1.rules = _
        rw [hr]
        exact stays_none hb
      · exact keepRules_bad hk
    · have := (afterFit_ok (s := { s with rules := l }) ha).1
      have e : decide ((badRules l).length > 0) = decide ((badRules l).map (·.1) ≠ []) := by
        rw [decide_eq_decide]
        cases badRules l <;> simp
      rw [← e]
      exact ⟨this.stack, this.recomputed, this.kept, this.stacked, this.keptStacked⟩

open Classical in
/-- **C28 (rules after `fit`).** After a `fit` which does something, the rules of the ruleset are, in order, those which are good
after having been fitted and are not equal to a bad one; the rules returned are the bad ones. -/
theorem C28_fit {R : RsEnv} {y : List Label} {xs : Option Xs} {force : Bool} {kw : Rule.Kw} {s s' : RuleSet}
    {dropped : List Member} (hx : Fits s xs) (hne : s.rules ≠ []) (h : fit R y xs force kw s = (.ok dropped, s')) :
    ∃ l, EachDone R (fun E => Rule.fit E y xs force kw) s.rules l ∧ dropped = l.filter (fun m => !m.rule.good) ∧
      s'.rules = l.filter fun m => Stays R.hasher l m := by
  obtain ⟨l, h1, h2, h3, -⟩ := fit_through hx hne h
  exact ⟨l, h1, h2, h3⟩

/-- **C28 (rules after `fit`, no equal rules).** If no two rules of the ruleset are equal, exactly the good rules are kept.
Missing: good rules equal to a bad one are dropped too (`C28_equal_false`); a ruleset whose rules are all fitted already keeps
its bad rules (`C28_fitted_false`). -/
theorem C28_fit_partial {R : RsEnv} {y : List Label} {xs : Option Xs} {force : Bool} {kw : Rule.Kw} {s s' : RuleSet}
    {dropped : List Member} (hx : Fits s xs) (hne : s.rules ≠ []) (hd : DifferentRules R.hasher s.rules)
    (h : fit R y xs force kw s = (.ok dropped, s')) :
    ∃ l, EachDone R (fun E => Rule.fit E y xs force kw) s.rules l ∧ dropped = l.filter (fun m => !m.rule.good) ∧
      s'.rules = l.filter fun m => m.rule.good := by
  obtain ⟨l, h1, h2, h3, -⟩ := fit_through hx hne h
  refine ⟨l, h1, h2, ?_⟩
  rw [h3]
  exact stays_different (different_map (eachDone_cond (fun E => Rule.leaves_fit E y xs force kw) h1) hd)

/-- **C28 (activation after `fit`).** After a `fit` with features, or which drops a rule, the activation of the ruleset is the
union of those of the rules which are left, and the stacked activations are their activations; after a `fit` without features
which drops nothing, the activation is the one it had. -/
theorem C28_fit_activation {R : RsEnv} {y : List Label} {xs : Option Xs} {force : Bool} {kw : Rule.Kw} {s s' : RuleSet}
    {dropped : List Member} {n : Nat} (hx : Fits s xs) (hne : s.rules ≠ []) (h : fit R y xs force kw s = (.ok dropped, s'))
    (hp : ∀ m ∈ s'.rules, HasPoints n m) :
    (s'.rules ≠ [] → xs ≠ none ∨ dropped ≠ [] → s'.act = some (vec n (coveredBy s'.rules))) ∧
      (s.stack = true → DifferentTexts R s'.rules → xs ≠ none ∨ dropped ≠ [] → s'.stacked = some (columnsOf R s'.rules)) ∧
      (xs = none → dropped = [] → s.available ≠ none → s'.act = s.act) := by
  obtain ⟨l, h1, h2, h3, h4⟩ := fit_through hx hne h
  have hcase : xs ≠ none ∨ dropped ≠ [] → decide (dropped ≠ []) = true ∨ xs.isSome = true := by
    rintro (e | e)
    · exact Or.inr (Option.isSome_iff_ne_none.2 e)
    · exact Or.inl (decide_eq_true e)
  refine ⟨fun hne' hc => ?_, fun hs hd hc => ?_, fun e1 e2 e3 => ?_⟩
  · refine evaluateSelf_stored hp hne' (h4.recomputed ?_)
    rcases hcase hc with e | e
    · exact Or.inl e
    · exact Or.inr (Or.inl e)
  · refine evaluateStacked_stored hp hd (h4.stacked hs ?_)
    rcases hcase hc with e | e
    · exact Or.inl e
    · exact Or.inr (Or.inl e)
  · refine h4.kept (by simp [e2]) (by rw [e1]; rfl) ?_
    unfold noActivation
    unfold available at e3
    cases ha : s.act with
    | none => rw [ha] at e3; exact absurd rfl e3
    | some v =>
      rw [ha] at e3
      simp only [ha]
      by_cases hv : v.length = 0
      · simp [hv] at e3
      · simp [hv]

/-- Three rules which are not fitted: the last one is too rare on `someXs`. -/
def unfitted : RuleSet :=
  (RuleSet.init someRs [member 0 [1, 1, 1], member 1 [0, 0, 1], member 2 [1, 1, 0]] true (RuleSet.blank true)).2

/-- Four targets -/
def someY : List Label := [.num (.fin 1), .num (.fin 2), .num (.fin 3), .num (.fin 6)]

theorem unfitted_fits : Fits unfitted (some RuleProps.someXs) :=
  ⟨fun x e => by cases e; decide, fun e => by cases e⟩

/-- The rules left have an activation of four points. -/
theorem vec4 (a b c d : Bool) (m : Member)
    (h : m.rule.act = some [if a then 1 else 0, if b then 1 else 0, if c then 1 else 0, if d then 1 else 0]) : HasPoints 4 m :=
  ⟨fun i => if i = 0 then a else if i = 1 then b else if i = 2 then c else d, h⟩

/-- The third rule is dropped. -/
example :
    let p := fit someRs someY (some RuleProps.someXs) false {} unfitted
    p.1.toOption.map (fun d => d.map fun m => m.rule.cond.bmins) = some [some [.fin 2]] ∧
      p.2.rules.map (fun m => m.rule.cond.bmins) = [some [.fin 0], some [.fin 1]] ∧ p.2.act = some [1, 1, 1, 1] ∧
      p.2.stacked = some [("a", [1, 1, 1, 1]), ("b", [0, 1, 1, 0])] ∧ unfitted.rules ≠ [] ∧
      DifferentRules someRs.hasher unfitted.rules := by
  refine ⟨by decide +kernel, by decide +kernel, by decide +kernel, by decide +kernel, (fun e => by cases e), ?_⟩
  unfold DifferentRules
  have e : unfitted.rules = [member 0 [1, 1, 1], member 1 [0, 0, 1], member 2 [1, 1, 0]] := rfl
  rw [e]
  simp only [List.pairwise_cons, List.forall_mem_cons, List.not_mem_nil, false_imp_iff, implies_true, and_true,
    List.Pairwise.nil]
  decide +kernel

/-- The points of the rules left -/
example : ∀ m ∈ (fit someRs someY (some RuleProps.someXs) false {} unfitted).2.rules, HasPoints 4 m := by
  have e : (fit someRs someY (some RuleProps.someXs) false {} unfitted).2.rules.map (fun m => m.rule.act) =
      [some [1, 1, 1, 1], some [0, 1, 1, 0]] := by decide +kernel
  intro m hm
  have : m.rule.act ∈ [some [1, 1, 1, 1], some [0, 1, 1, 0]] := by
    rw [← e]
    exact List.mem_map_of_mem hm
  simp only [List.mem_cons, List.not_mem_nil, or_false] at this
  rcases this with h | h
  · exact vec4 true true true true m h
  · exact vec4 false true true false m h

/-- A rule which was seen as bad -/
def badMember (lo : Rat) (v : List Nat) : Member :=
  ⟨.regression, { (member lo v).rule with good := false, badBecause := some "coverage", fitted := true }⟩

/-- **C28 is false for equal rules:** a bad rule makes `fit` drop a good rule with the same condition. -/
theorem C28_equal_false :
    let s := (RuleSet.init someRs [member 0 [1, 1, 1], badMember 0 [1, 1, 1], member 1 [0, 0, 1]] true (RuleSet.blank false)).2
    let p := fit someRs someY (some RuleProps.someXs) false {} s
    p.1.toOption.map (fun d => d.map fun m => m.rule.good) = some [false] ∧ s.rules.length = 3 ∧
      p.2.rules.map (fun m => m.rule.cond.bmins) = [some [.fin 1]] :=
  ⟨by decide +kernel, by decide +kernel, by decide +kernel⟩

/-- **C28 is false when all rules are fitted and no features are given:** bad rules stay. -/
theorem C28_fitted_false {R : RsEnv} {y : List Label} {force : Bool} {kw : Rule.Kw} {s : RuleSet} {k : Kind}
    (hk : s.ruleType = some k) (hm : kw.hasMethod = false) (hf : ∀ m ∈ s.rules, m.rule.fitted = true) :
    fit R y none force kw s = (.ok [], s) := by
  unfold fit
  rw [Py.bind_ok (a := k) (s' := s) (by
    unfold needType
    rw [Py.bind_ok (Py.get_run s)]
    simp [hk])]
  rw [if_neg (by simp [hm]), Py.bind_ok (Py.get_run s), if_neg (by simp)]
  split
  · rfl
  · rw [if_pos]
    · rfl
    · simp only [Option.isNone_none, Bool.and_true, List.all_eq_true]
      exact hf

/-- A bad rule which is fitted -/
example : let s := (RuleSet.init someRs [badMember 0 [1, 1, 1]] true (RuleSet.blank false)).2
    s.ruleType = some .regression ∧ (∀ m ∈ s.rules, m.rule.fitted = true) ∧ s.rules.map (fun m => m.rule.good) = [false] := by
  refine ⟨rfl, ?_, rfl⟩
  intro m hm
  rw [List.mem_singleton.1 hm]
  rfl

/-- **C28 is false after all rules have been dropped once:** the activation of the ruleset has length 0 and, where it cannot be
cleared, a `fit` which drops a rule raises and leaves the ruleset without rules. -/
theorem C28_clear_false {R : RsEnv} {drops : List (Member × Nat)} {s : RuleSet} {kept : List Member} {e : Err}
    (ha : s.act = some []) (hk : keepRules R.hasher drops s.rules.zipIdx = .ok kept) (hc : R.clear 0 = .error e) :
    dropRules R drops s = (.error e, { s with rules := [] }) := by
  unfold dropRules
  rw [Py.bind_ok (Py.get_run s), Py.bind_ok (a := kept) (s' := s) (by rw [Py.ofExcept_run, hk]),
    Py.bind_ok (Py.modify_run _ _)]
  refine Py.bind_err ?_
  unfold clearActivation
  rw [Py.bind_ok (Py.get_run _)]
  simp only [ha]
  refine Py.bind_err ?_
  rw [Py.ofExcept_run, List.length_nil, hc]

/-- `clear` of an activation of length 0 raises (`C04_clear_empty_false`); all rules dropped, then two others appended without
update of the activation, and a second `fit`. -/
example :
    let R : RsEnv := { someRs with clear := fun n => if n = 0 then .error .indexError else .ok () }
    let s0 := (RuleSet.init R [member 2 [1, 1, 0]] true (RuleSet.blank false)).2
    let s1 := (fit R someY (some RuleProps.someXs) false {} s0).2
    let s2 := (append R (member 2 [0, 0, 1, 0]) false (append R (member 0 [1, 1, 1, 1]) false s1).2).2
    s1.rules.length = 0 ∧ s1.act = some [] ∧ s2.rules.length = 2 ∧
      (fit R someY (some RuleProps.someXs) false {} s2).1.toOption.map (fun d => d.length) = none ∧
      (fit R someY (some RuleProps.someXs) false {} s2).2.rules.length = 0 :=
  ⟨by decide +kernel, by decide +kernel, by decide +kernel, by decide +kernel, by decide +kernel⟩

/-! ## eval -/

open Classical in
/-- What `eval` does when it does something -/
theorem eval_through {R : RsEnv} {y : List Label} {xs : Option Xs} {keep : Bool} {w : Option WeightsArg} {force : Bool}
    {kw : Rule.Kw} {s s' : RuleSet} {dropped : List Member} (hx : ∀ x, xs = some x → x.length ≠ 0) (hne : s.rules ≠ [])
    (h : eval R y xs keep w force kw s = (.ok dropped, s')) :
    ∃ l s1 keep', (keep' = (keep || !(s.rules.all fun m => m.rule.fitted))) ∧
      EachDone R (fun E => Rule.eval E y xs keep' force kw) s.rules l ∧ dropped = l.filter (fun m => !m.rule.good) ∧
      s1.rules = (l.filter fun m => Stays R.hasher l m) ∧
      AfterEval R { s with rules := l } (decide (dropped ≠ [])) (xs.isSome && keep') s1 ∧
      List.Forall₂ SameButActivation s1.rules s'.rules ∧ s'.stacked = s1.stacked ∧
      (noActivation s1 = false → s'.act = s1.act) := by
  rcases eval_ok h with ⟨-, -, h | h⟩ | ⟨l, s1, s2, keep', hkeep, hl, ha, hc, rfl, rfl⟩
  · rw [Option.any_eq_true] at h
    obtain ⟨x, hx1, hx2⟩ := h
    exact absurd (by simpa using hx2) (hx x hx1)
  · exact absurd h hne
  · have hfr := calcCriterion_frame (R := R) y (if keep' then none else xs) w kw s1
    rw [hc] at hfr
    obtain ⟨i1, i2, i3, i4, -, -, -⟩ := hfr
    refine ⟨l, s1, keep', hkeep, hl, badRules_fst l, ?_, ?_, i1, i2, i4⟩
    · rcases (afterEval_ok (s := { s with rules := l }) ha).2 with ⟨hb, hr⟩ | hk
      · rw [hr]
        exact stays_none hb
      · exact keepRules_bad hk
    · have := (afterEval_ok (s := { s with rules := l }) ha).1
      have e : decide ((badRules l).length > 0) = decide ((badRules l).map (·.1) ≠ []) := by
        rw [decide_eq_decide]
        cases badRules l <;> simp
      rw [← e]
      exact this

open Classical in
/-- **C28 (rules after `eval`).** After `eval` with features which are not empty or without features, the rules are, in order,
those which are good after having been evaluated and are not equal to a bad one, and the rules returned are the bad ones; the
prediction made for the criterion can change activations of rules (`C22_changes_false`).
`eval` also keeps the new activations if some rule was not fitted. -/
theorem C28_eval {R : RsEnv} {y : List Label} {xs : Option Xs} {keep : Bool} {w : Option WeightsArg} {force : Bool}
    {kw : Rule.Kw} {s s' : RuleSet} {dropped : List Member} (hx : ∀ x, xs = some x → x.length ≠ 0) (hne : s.rules ≠ [])
    (h : eval R y xs keep w force kw s = (.ok dropped, s')) :
    ∃ l, EachDone R (fun E => Rule.eval E y xs (keep || !(s.rules.all fun m => m.rule.fitted)) force kw) s.rules l ∧
      dropped = l.filter (fun m => !m.rule.good) ∧
      List.Forall₂ SameButActivation (l.filter fun m => Stays R.hasher l m) s'.rules := by
  obtain ⟨l, s1, keep', rfl, h1, h2, h3, -, h4, -⟩ := eval_through hx hne h
  exact ⟨l, h1, h2, h3 ▸ h4⟩

/-- **C28 (rules after `eval`, no equal rules).** If no two rules of the ruleset are equal, exactly the good rules are kept. -/
theorem C28_eval_partial {R : RsEnv} {y : List Label} {xs : Option Xs} {keep : Bool} {w : Option WeightsArg} {force : Bool}
    {kw : Rule.Kw} {s s' : RuleSet} {dropped : List Member} (hx : ∀ x, xs = some x → x.length ≠ 0) (hne : s.rules ≠ [])
    (hd : DifferentRules R.hasher s.rules) (h : eval R y xs keep w force kw s = (.ok dropped, s')) :
    ∃ l, EachDone R (fun E => Rule.eval E y xs (keep || !(s.rules.all fun m => m.rule.fitted)) force kw) s.rules l ∧
      dropped = l.filter (fun m => !m.rule.good) ∧
      List.Forall₂ SameButActivation (l.filter fun m => m.rule.good) s'.rules := by
  obtain ⟨l, h1, h2, h3⟩ := C28_eval hx hne h
  refine ⟨l, h1, h2, ?_⟩
  rw [← stays_different (H := R.hasher) (different_map (eachDone_cond (fun E => Rule.leaves_eval E y xs _ force kw) h1) hd)]
  exact h3

open Classical in
/-- **C28 (activation after `eval`).** After an `eval` with features which keeps the new activations, the activation of the
ruleset is the union of those of the rules which are left (as they were before the prediction for the criterion).  Otherwise,
when nothing is dropped, it is the one it had.
Missing: when a rule is dropped otherwise, it is zero everywhere (`C28_eval_zeros_false`). -/
theorem C28_eval_activation_partial {R : RsEnv} {y : List Label} {xs : Option Xs} {keep : Bool} {w : Option WeightsArg}
    {force : Bool} {kw : Rule.Kw} {s s' : RuleSet} {dropped : List Member} {n : Nat} (hn : 0 < n)
    (hx : ∀ x, xs = some x → x.length ≠ 0) (hne : s.rules ≠ []) (h : eval R y xs keep w force kw s = (.ok dropped, s')) :
    ∃ l, EachDone R (fun E => Rule.eval E y xs (keep || !(s.rules.all fun m => m.rule.fitted)) force kw) s.rules l ∧
      ((l.filter fun m => Stays R.hasher l m) ≠ [] → (∀ m ∈ l.filter fun m => Stays R.hasher l m, HasPoints n m) →
        xs ≠ none → (keep || !(s.rules.all fun m => m.rule.fitted)) = true →
        s'.act = some (vec n (coveredBy (l.filter fun m => Stays R.hasher l m)))) ∧
      (xs = none ∨ (keep || !(s.rules.all fun m => m.rule.fitted)) = false → s.available ≠ none → dropped = [] →
        s'.act = s.act) := by
  obtain ⟨l, s1, keep', rfl, h1, h2, h3, h4, h5, h6, h7⟩ := eval_through hx hne h
  refine ⟨l, h1, fun hne' hp hxs hk => ?_, fun hc ha hd => ?_⟩
  · rw [← h3] at hne' hp ⊢
    have e := evaluateSelf_stored hp hne' (h4.recomputed (Or.inl (by rw [hk, Bool.and_true]; exact Option.isSome_iff_ne_none.2 hxs)))
    rw [h7, e]
    unfold noActivation
    rw [e]
    simp only [vec_len]
    simp
    omega
  · have hg : (xs.isSome && (keep || !(s.rules.all fun m => m.rule.fitted))) = false := by
      rcases hc with rfl | hc
      · rfl
      · rw [hc, Bool.and_false]
    have hno : noActivation s = false := by
      unfold noActivation
      unfold available at ha
      cases hs : s.act with
      | none => rw [hs] at ha; exact absurd rfl ha
      | some v =>
        rw [hs] at ha
        simp only
        by_cases hv : v.length = 0
        · simp [hv] at ha
        · simp [hv]
    have e := h4.kept hg hno
    rw [hd] at e
    have e : s1.act = s.act := e
    rw [h7, e]
    unfold noActivation at hno ⊢
    rw [e]
    exact hno

/-- The rules of `unfitted` which were kept, fitted -/
def fittedRules : RuleSet := (fit someRs someY (some RuleProps.someXs) false {} unfitted).2

/-- Evaluation on data where the second rule is too rare, new activations kept -/
example :
    let p := eval someRs someY (some (.arr ⟨1, [[.fin 0], [.fin 3], [.fin 0], [.fin (1 / 2)]]⟩)) true none false
      { criterionMethod := some "mse" } fittedRules
    p.1.toOption.map (fun d => d.map fun m => m.rule.cond.bmins) = some [some [.fin 1]] ∧ fittedRules.rules.length = 2 ∧
      p.2.rules.map (fun m => m.rule.cond.bmins) = [some [.fin 0]] ∧ p.2.act = some [1, 1, 1, 1] ∧
      p.2.stacked = some [("a", [1, 1, 1, 1])] :=
  ⟨by decide +kernel, by decide +kernel, by decide +kernel, by decide +kernel, by decide +kernel⟩

/-- **C28 is false for the activation after `eval`:** when a rule is dropped and new activations are not kept, the activation of
the ruleset is zero everywhere, though the rule left is active on the train set. -/
theorem C28_eval_zeros_false :
    let s := (RuleSet.init someRs (fittedRules.rules ++ [badMember 2 [0, 1, 1, 0]]) true (RuleSet.blank false)).2
    let p := eval someRs someY (some RuleProps.someXs) false none false { criterionMethod := some "mse" } s
    p.1.toOption.map (fun d => d.map fun m => m.rule.cond.bmins) = some [some [.fin 2]] ∧ s.act = some [1, 1, 1, 1] ∧
      p.2.rules.map (fun m => m.rule.act) = [some [1, 1, 1, 1], some [0, 1, 1, 0]] ∧ p.2.act = some [0, 0, 0, 0] ∧
      p.2.rulesetCoverage = .num (.fin 0) :=
  ⟨by decide +kernel, by decide +kernel, by decide +kernel, by decide +kernel, by decide +kernel⟩

/-! ## C35 after fit -/

/-- **C35 is false after `fit`:** the features of the rules which were dropped stay. -/
theorem C35_fit_false :
    let other : Member := ⟨.regression, { (member 2 [1, 1, 0]).rule with
      cond := { (member 2 [1, 1, 0]).rule.cond with names := some ["b"] } }⟩
    let s := (RuleSet.init someRs [member 0 [1, 1, 1], other] true (RuleSet.blank false)).2
    let p := fit someRs someY (some RuleProps.someXs) false {} s
    p.1.toOption.map (fun d => d.length) = some 1 ∧ p.2.rules.map (fun m => m.rule.cond.names) = [some ["a"]] ∧ "b" ∈ p.2.names :=
  ⟨by decide +kernel, by decide +kernel, by decide +kernel⟩

end Verif.RuleSetProps
