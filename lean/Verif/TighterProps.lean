import Verif.TighterLemmas
import Verif.FitProps
import Verif.RuleFlagProps

/-!
# Properties: stricter thresholds
-/

namespace Verif.Strict

open Spec Vote RuleSet RuleSetProps
open Thresholds (Limits)

/-! ## Lemmas -/

/-- The ruleset code with other thresholds -/
def withSetLimits (R : RsEnv) (t : Option Limits) : RsEnv := { R with env := withLimits R.env t }

/-- Two outcomes of the same rule -/
def Pair (m m' : Member) : Prop := m'.rule.cond = m.rule.cond ∧ (m'.rule.good = true → m.rule.good = true ∧ KeptMember m m')

theorem pairs {R : RsEnv} {t : Option Limits} {f f' : Env → Py Rule Unit} (hf : ∀ E, Rule.Leaves Rule.cond (f E)) (hf' : ∀ E, Rule.Leaves Rule.cond (f' E))
    (h : ∀ k, Fine (f (R.ofKind k)) (f' ((withSetLimits R t).ofKind k))) {l l1 l2 : List Member} (h1 : EachDone R f l l1)
    (h2 : EachDone (withSetLimits R t) f' l l2) : List.Forall₂ Pair l1 l2 := by
  induction h1 generalizing l2 with
  | nil => cases h2; exact .nil
  | @cons m m1 l l1 hm _ ih =>
    cases h2 with
    | @cons _ m2 _ l2 hm2 hr =>
      refine .cons ⟨?_, fun hg => ?_⟩ (ih hr)
      · have e1 := hf (R.ofKind m.kind) m.rule
        have e2 := hf' ((withSetLimits R t).ofKind m.kind) m.rule
        rw [hm.2] at e1
        rw [hm2.2] at e2
        exact e2.trans e1.symm
      · obtain ⟨l', e⟩ := h m.kind m.rule m.rule.log () m2.rule hm2.2 hg
        have e' : m1.rule = { m2.rule with log := l' } := by
          have := hm.2.symm.trans e
          exact (Prod.mk.injEq .. ▸ this).2
        refine ⟨by rw [e']; exact hg, hm2.1.trans hm.1.symm, ?_⟩
        unfold KeptRule
        rw [e']

open Classical in
theorem filter_pairs {p1 p2 : Member → Prop} (hp : ∀ m m', Pair m m' → p2 m' → p1 m) (hg : ∀ m', p2 m' → m'.rule.good = true) {l1 l2 : List Member}
    (h : List.Forall₂ Pair l1 l2) :
    ∃ kept, kept.Sublist (l1.filter fun m => p1 m) ∧ List.Forall₂ KeptMember kept (l2.filter fun m => p2 m) := by
  induction h with
  | nil => exact ⟨[], .slnil, .nil⟩
  | @cons m m' l l' h0 _ ih =>
    obtain ⟨kept, h1, h2⟩ := ih
    by_cases hm : p2 m'
    · refine ⟨m :: kept, ?_, ?_⟩
      · rw [List.filter_cons_of_pos (p := fun m => decide (p1 m)) (decide_eq_true (hp m m' h0 hm))]
        exact h1.cons_cons m
      · rw [List.filter_cons_of_pos (p := fun m => decide (p2 m)) (decide_eq_true hm)]
        exact .cons (h0.2 (hg m' hm)).2 h2
    · refine ⟨kept, h1.trans ((List.sublist_cons_self m l).filter _), ?_⟩
      rw [List.filter_cons_of_neg (by simpa using hm)]
      exact h2

open Classical in
/-- The rules which stay under the stricter thresholds are among those which stay under the others. -/
theorem stay_pairs {H : Cond.Hasher} {l1 l2 : List Member} (h : List.Forall₂ Pair l1 l2) :
    ∃ kept, kept.Sublist (l1.filter fun m => Stays H l1 m) ∧ List.Forall₂ KeptMember kept (l2.filter fun m => Stays H l2 m) := by
  have hs : ∀ m m', Pair m m' → Stays H l2 m' → Stays H l1 m := by
    intro m m' hp hm
    obtain ⟨hg, hb⟩ := hm
    refine ⟨(hp.2 hg).1, fun d hd hbad => ?_⟩
    obtain ⟨d', hd', hdd⟩ : ∃ d' ∈ l2, Pair d d' := by
      clear hb
      induction h with
      | nil => cases hd
      | cons h0 _ ih =>
        rcases List.mem_cons.1 hd with rfl | hd
        · exact ⟨_, List.mem_cons_self .., h0⟩
        · obtain ⟨d', h1, h2⟩ := ih hd
          exact ⟨d', List.mem_cons_of_mem _ h1, h2⟩
    have hbad' : d'.rule.good = false := by
      cases hg' : d'.rule.good with
      | false => rfl
      | true => rw [(hdd.2 hg').1] at hbad; cases hbad
    have := hb d' hd' hbad'
    rw [hp.1, hdd.1] at this
    exact this
  exact filter_pairs hs (fun m' hm => hm.1) h

theorem fine_setFit {R : RsEnv} {t : Option Limits} (ht : TighterOpt R.env.thresholds t) (y : List Label) (xs : Option Xs) (force : Bool) (kw : Rule.Kw)
    (k : Kind) : Fine (Rule.fit (R.ofKind k) y xs force kw) (Rule.fit ((withSetLimits R t).ofKind k) y xs force kw) :=
  fine_fit (E := R.ofKind k) ht y xs force kw

theorem fine_setEval {R : RsEnv} {t : Option Limits} (ht : TighterOpt R.env.thresholds t) (y : List Label) (xs : Option Xs) (keep force : Bool) (kw : Rule.Kw)
    (k : Kind) : Fine (Rule.eval (R.ofKind k) y xs keep force kw) (Rule.eval ((withSetLimits R t).ofKind k) y xs keep force kw) :=
  fine_eval (E := R.ofKind k) ht y xs keep force kw

/-- Up to activations on both sides -/
theorem same_but {a b c d : List Member} {a' : List Member} (h1 : a'.Sublist a) (h2 : List.Forall₂ KeptMember a' b) (h3 : List.Forall₂ SameButActivation a c)
    (h4 : List.Forall₂ SameButActivation b d) : ∃ c', c'.Sublist c ∧ List.Forall₂ KeptMemberBut c' d := by
  induction h1 generalizing b c d with
  | slnil =>
    cases h2
    cases h4
    exact ⟨[], List.nil_sublist _, .nil⟩
  | cons x _ ih =>
    cases h3 with
    | cons _ h3 =>
      obtain ⟨c', e1, e2⟩ := ih h2 h3 h4
      exact ⟨c', e1.cons _, e2⟩
  | cons_cons x _ ih =>
    cases h3 with
    | @cons _ mc _ c hx h3 =>
      cases h2 with
      | @cons _ mb _ b hb h2 =>
        cases h4 with
        | @cons _ md _ d hd h4 =>
          obtain ⟨c', e1, e2⟩ := ih h2 h3 h4
          refine ⟨mc :: c', e1.cons_cons _, .cons ⟨hd.1.trans (hb.1.trans hx.1.symm), ?_⟩ e2⟩
          rw [hd.2, hx.2]
          have := congrArg (fun r : Rule => ({ r with act := none } : Rule)) hb.2
          exact this

/-! ## C74 -/

/-- **C74 (`Rule.fit`).** If a rule is good after `fit` under thresholds which are stricter than others (higher minima, lower maxima, limits on more
attributes; no thresholds at all are the weakest), then `fit` under the other thresholds works too and leaves the same rule. -/
theorem C74_rule_fit {E : Env} {t : Option Limits} (ht : TighterOpt E.thresholds t) {y : List Label} {xs : Option Xs} {force : Bool} {kw : Rule.Kw} {r r' : Rule}
    (h : Rule.fit { E with thresholds := t } y xs force kw r = (.ok (), r')) (hg : r'.good = true) :
    ∃ r2, Rule.fit E y xs force kw r = (.ok (), r2) ∧ r2.good = true ∧ KeptRule r2 r' := by
  obtain ⟨l, e⟩ := fine_fit ht y xs force kw r r.log () r' h hg
  exact ⟨_, e, hg, rfl⟩

/-- **C74 (`Rule.eval`).** The same for `eval`. -/
theorem C74_rule_eval {E : Env} {t : Option Limits} (ht : TighterOpt E.thresholds t) {y : List Label} {xs : Option Xs} {recompute force : Bool} {kw : Rule.Kw}
    {r r' : Rule} (h : Rule.eval { E with thresholds := t } y xs recompute force kw r = (.ok (), r')) (hg : r'.good = true) :
    ∃ r2, Rule.eval E y xs recompute force kw r = (.ok (), r2) ∧ r2.good = true ∧ KeptRule r2 r' := by
  obtain ⟨l, e⟩ := fine_eval ht y xs recompute force kw r r.log () r' h hg
  exact ⟨_, e, hg, rfl⟩

/-- **C74 (`RuleSet.fit`).** If `fit` of a ruleset works under some thresholds and under stricter ones, the rules kept under the stricter ones are, in order,
among those kept under the others, and they are the same rules with the same predictions and figures. -/
theorem C74_fit {R : RsEnv} {t : Option Limits} (ht : TighterOpt R.env.thresholds t) {y : List Label} {xs : Option Xs} {force : Bool} {kw : Rule.Kw}
    {s s1 s2 : RuleSet} {d1 d2 : List Member} (hx : Fits s xs) (hne : s.rules ≠ [])
    (h1 : RuleSet.fit R y xs force kw s = (.ok d1, s1))
    (h2 : RuleSet.fit { R with env := { R.env with thresholds := t } } y xs force kw s = (.ok d2, s2)) :
    ∃ kept, kept.Sublist s1.rules ∧ List.Forall₂ KeptMember kept s2.rules := by
  obtain ⟨l1, e1, -, r1, -⟩ := fit_through hx hne h1
  obtain ⟨l2, e2, -, r2, -⟩ := fit_through hx hne h2
  rw [r1, r2]
  exact stay_pairs (pairs (fun E => Rule.leaves_fit E y xs force kw) (fun E => Rule.leaves_fit E y xs force kw) (fine_setFit ht y xs force kw) e1 e2)

/-- **C74 (`RuleSet.eval`).** The same for `eval`, up to the stored activations (the prediction made for the criterion can change them, `C22_changes_false`). -/
theorem C74_eval {R : RsEnv} {t : Option Limits} (ht : TighterOpt R.env.thresholds t) {y : List Label} {xs : Option Xs} {keep : Bool} {w : Option WeightsArg}
    {force : Bool} {kw : Rule.Kw} {s s1 s2 : RuleSet} {d1 d2 : List Member} (hx : ∀ x, xs = some x → x.length ≠ 0) (hne : s.rules ≠ [])
    (h1 : RuleSet.eval R y xs keep w force kw s = (.ok d1, s1))
    (h2 : RuleSet.eval { R with env := { R.env with thresholds := t } } y xs keep w force kw s = (.ok d2, s2)) :
    ∃ kept, kept.Sublist s1.rules ∧ List.Forall₂ KeptMemberBut kept s2.rules := by
  obtain ⟨l1, e1, -, r1⟩ := C28_eval hx hne h1
  obtain ⟨l2, e2, -, r2⟩ := C28_eval hx hne h2
  obtain ⟨kept, k1, k2⟩ := stay_pairs (H := R.hasher) (pairs (fun E => Rule.leaves_eval E y xs _ force kw) (fun E => Rule.leaves_eval E y xs _ force kw)
    (fine_setEval ht y xs _ force kw) e1 e2)
  exact same_but k1 k2 r1 r2

/-! ## Examples -/

/-- At least 3/4 of the points instead of 1/2, and a prediction which is not negative -/
def stricter : Option Limits := some [("coverage", [("min", .num (.fin (3 / 4)))]), ("prediction", [("min", .num (.fin 0))])]

theorem stricter_tighter (kind : Kind) : TighterOpt (RuleProps.someEnv kind).thresholds stricter := by
  intro name th h
  have hn : name = "coverage" := by
    by_contra hn
    simp [Thresholds.Dict.get?, RuleProps.someEnv, Ne.symm hn] at h
  subst hn
  have e : th = [("min", .num (.fin (1 / 2)))] := by
    have : some [("min", Thresholds.Lim.num (.fin (1 / 2)))] = some th := h
    exact (Option.some.inj this).symm
  subst e
  refine ⟨[("min", .num (.fin (3 / 4)))], rfl, rfl, ?_⟩
  intro p hp _
  rw [List.mem_singleton.1 hp]
  exact ⟨.num (.fin (3 / 4)), rfl, Or.inr ⟨1 / 2, 3 / 4, rfl, rfl, Or.inl ⟨rfl, by norm_num⟩⟩⟩

/-- Two of the three rules are kept under "at least half of the points", one under
"at least three quarters". -/
example :
    let strict : RsEnv := { someRs with env := { someRs.env with thresholds := stricter } }
    let p := RuleSet.fit someRs someY (some RuleProps.someXs) false {} unfitted
    let p' := RuleSet.fit strict someY (some RuleProps.someXs) false {} unfitted
    p.1.toOption.map (fun d => d.map fun m => m.rule.cond.bmins) = some [some [.fin 2]] ∧
      p'.1.toOption.map (fun d => d.map fun m => m.rule.cond.bmins) = some [some [.fin 1], some [.fin 2]] ∧
      p.2.rules.map (fun m => m.rule.cond.bmins) = [some [.fin 0], some [.fin 1]] ∧
      p'.2.rules.map (fun m => m.rule.cond.bmins) = [some [.fin 0]] ∧ TighterOpt someRs.env.thresholds stricter := by
  refine ⟨by decide +kernel, by decide +kernel, by decide +kernel, by decide +kernel, stricter_tighter .regression⟩

/-- A rule which covers three points of four is good under the stricter thresholds, after `fit` and after `eval`. -/
example :
    let strict : Env := { RuleProps.someEnv .regression with thresholds := stricter }
    let p := Rule.fit strict RuleFlagProps.fourY (some RuleProps.someXs) false {} RuleFlagProps.newRule
    let q := Rule.eval strict RuleFlagProps.fourY (some RuleProps.someXs) true false {} p.2
    p.1 = .ok () ∧ p.2.good = true ∧ p.2.act = some [1, 1, 0, 1] ∧ q.1 = .ok () ∧ q.2.good = true := by
  decide +kernel

/-- `eval` drops one rule more. -/
example :
    let strict : RsEnv := { someRs with env := { someRs.env with thresholds := stricter } }
    let s : RuleSet := (RuleSet.fit { someRs with env := { someRs.env with thresholds := none } } someY (some RuleProps.someXs) false {} unfitted).2
    let kw : Rule.Kw := { criterionMethod := some "mse" }
    (RuleSet.eval someRs someY (some RuleProps.someXs) true none false kw s).2.rules.map (fun m => m.rule.cond.bmins) = [some [.fin 0], some [.fin 1]] ∧
      (RuleSet.eval strict someY (some RuleProps.someXs) true none false kw s).2.rules.map (fun m => m.rule.cond.bmins) = [some [.fin 0]] ∧
      (RuleSet.eval someRs someY (some RuleProps.someXs) true none false kw s).1.toOption.isSome = true ∧
      (RuleSet.eval strict someY (some RuleProps.someXs) true none false kw s).1.toOption.isSome = true := by
  decide +kernel

/-- That `fit` works under the weaker thresholds is needed for rulesets: nothing is computed for a rule which was rejected, so that
targets of the wrong number are noticed only if the rule is not rejected. -/
example :
    let all : Option Limits := some [("coverage", [("min", .num (.fin 1))])]
    let strict : Env := { RuleProps.someEnv .regression with thresholds := all }
    (Rule.fit strict (someY.take 2) (some RuleProps.someXs) false {} RuleFlagProps.newRule).1 = .ok () ∧
      (Rule.fit (RuleProps.someEnv .regression) (someY.take 2) (some RuleProps.someXs) false {} RuleFlagProps.newRule).1 ≠ .ok () := by
  decide +kernel

end Verif.Strict
