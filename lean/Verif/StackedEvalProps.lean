import Verif.StackedEvalSetLemmas
import Verif.StackedFitProps

/-!
# Properties of stacked eval
-/

namespace Verif.RuleSetProps

open Verif Vote Spec RuleSet

/-- **C44 (rules).** With `STACKED_FIT`, each rule of the ruleset is evaluated as without: it is good or bad for the same reason, and if
it is good its criterion, activation, prediction and marks are the same.  All good rules are kept, all rules returned are bad, each
rule is kept or returned, and none is returned twice.  (The criterion of the ruleset is computed afterwards, which may change
activations: `C44_activation_false`.)
Missing: bad rules may be kept (`C44_bad_kept_false`), and what `CanEval` leaves out: classes 'zero', '' and NaN
(`C44_class_false`, `C44_missing_false`), regression rules without features (`C44_empty_false`), conditions with the same text (`C44_texts_false`).  It is
assumed that both evals go through (`C44_raises_false`). -/
theorem C44_rules_partial {R : RsEnv} {k : Kind} {y : List Label} {xs : Option Xs} {keep : Bool} {w : Option WeightsArg} {kw : Rule.Kw}
    {s s1 s2 : RuleSet} {d1 d2 : List Member} (hc : CanEval R k y xs s) (hd : DifferentRules R.hasher s.rules) (hne : s.rules ≠ [])
    (h1 : eval (withStackedFit R false) y xs keep w false kw s = (.ok d1, s1))
    (h2 : evalStacked (withStackedFit R true) y xs keep w kw s = (.ok d2, s2)) :
    ∃ l1 l2 kept, EachDone R (fun E => Rule.eval E y xs (keep || !(s.rules.all fun m => m.rule.fitted)) false kw) s.rules l1 ∧
      l2.length = s.rules.length ∧
      (∀ (j : Nat) m m1 m2, s.rules[j]? = some m → l1[j]? = some m1 → l2[j]? = some m2 →
        m2.kind = m1.kind ∧ SameEval m.rule m1.rule m2.rule) ∧
      d1 = l1.filter (fun m => !m.rule.good) ∧ List.Forall₂ SameButActivation (l1.filter fun m => m.rule.good) s1.rules ∧
      (l2.filter fun m => m.rule.good).Sublist kept ∧ kept.Sublist l2 ∧ List.Forall₂ SameButActivation kept s2.rules ∧
      d2.Sublist (l2.filter fun m => !m.rule.good) ∧ (kept ++ d2).Perm l2 ∧ s2.testSize = s1.testSize := by
  have hsize : s1.testSize = .num (.fin y.length) := by
    rcases eval_ok h1 with ⟨-, -, h | h⟩ | ⟨l, s1', s2', keep', -, -, -, -, rfl, -⟩
    · rw [Option.any_eq_true] at h
      obtain ⟨x, hx1, hx2⟩ := h
      exact absurd (by simpa using hx2) (hc.points x hx1)
    · exact absurd h hne
    · rfl
  obtain ⟨l1, sa, keep', hkeep, e1, e2, e3, -, e5, -, -⟩ := eval_through hc.points hne h1
  have hd1 : DifferentRules R.hasher l1 := different_map (eachDone_cond (fun E => Rule.leaves_eval E y xs keep' false kw) e1) hd
  have e3 : sa.rules = l1.filter fun m => m.rule.good := e3.trans (stays_different hd1)
  rw [e3] at e5
  obtain ⟨l2, ns, kept, hb, hkept, hsb, hsz, -⟩ := both_evals (R := withStackedFit R true) (k := k)
    ⟨hc.type, hc.kinds, hc.points, hc.comparable, hc.texts, hc.stacked, hc.extra⟩ hd hne hkeep e1 h2
  have l1' := hb.len1
  have l2' := hb.len2
  have l3' := hb.len3
  have hbad : ∀ (j : Nat) m2 n, l2[j]? = some m2 → ns[j]? = some n → 0 < n → m2.rule.good = false := by
    intro j m2 n g1 g2 hn
    have hj := (List.getElem?_eq_some_iff.1 g1).1
    exact (hb.same j (s.rules[j]'(by omega)) (l1[j]'(by omega)) m2 n (by simp) (by simp) g1 g2).2.2.2.2.2 hn
  have hone : ∀ n ∈ ns, n ≤ 1 := by
    intro n hn
    obtain ⟨j, hj⟩ := List.mem_iff_getElem?.1 hn
    have hj' := (List.getElem?_eq_some_iff.1 hj).1
    exact (hb.same j (s.rules[j]'(by omega)) (l1[j]'(by omega)) (l2[j]'(by omega)) n (by simp) (by simp) (by simp) hj).2.2.2.2.1
  have hz : l2 = l2.zipIdx.map (·.1) := (List.zipIdx_map_fst 0 l2).symm
  have hdrop : d2 = (l2.zipIdx.filter fun p => !decide (ns[p.2]? = some 0)).map (·.1) :=
    hb.dropped.trans (dropList_once (l3'.trans l2'.symm) hone)
  have hgoodkept : ∀ p ∈ l2.zipIdx, p.1.rule.good = true → ns[p.2]? = some 0 := by
    rintro ⟨m, j⟩ hp hg
    have hj := List.mk_mem_zipIdx_iff_getElem?.1 hp
    have hj' := (List.getElem?_eq_some_iff.1 hj).1
    have hn : ns[j]? = some (ns[j]'(by omega)) := by simp
    by_contra h0
    have := hbad j m _ hj hn (by
      have : ns[j]'(by omega) ≠ 0 := fun e => h0 (by show ns[j]? = some 0; rw [hn, e])
      omega)
    have hg : m.rule.good = true := hg
    rw [hg] at this
    cases this
  refine ⟨l1, l2, kept, ?_, l2', ?_, e2, e5, ?_, ?_, hsb, ?_, ?_, hsz.trans hsize.symm⟩
  · rw [← hkeep]
    exact e1
  · intro j m m1 m2 g1 g2 g3
    have hj := (List.getElem?_eq_some_iff.1 g1).1
    obtain ⟨f1, f2, -, f3, -⟩ := hb.same j m m1 m2 (ns[j]'(by omega)) g1 g2 g3 (by simp)
    exact ⟨f2.trans f1.symm, f3⟩
  · rw [hkept]
    conv_lhs => rw [hz]
    rw [List.filter_map]
    refine List.Sublist.map _ ?_
    have e : (l2.zipIdx.filter ((fun m : Member => m.rule.good) ∘ fun p => p.1)) =
        (l2.zipIdx.filter fun p => ns[p.2]? = some 0).filter ((fun m : Member => m.rule.good) ∘ fun p => p.1) := by
      rw [List.filter_filter]
      apply List.filter_congr
      intro p hp
      show p.1.rule.good = (p.1.rule.good && decide (ns[p.2]? = some 0))
      cases hg : p.1.rule.good with
      | false => rfl
      | true => rw [Bool.true_and, decide_eq_true (hgoodkept p hp hg)]
    rw [e]
    exact List.filter_sublist
  · rw [hkept]
    conv_rhs => rw [hz]
    exact List.Sublist.map _ List.filter_sublist
  · rw [hdrop]
    conv_rhs => rw [hz]
    rw [List.filter_map]
    refine List.Sublist.map _ ?_
    have e : (l2.zipIdx.filter fun p => !decide (ns[p.2]? = some 0)) =
        (l2.zipIdx.filter ((fun m : Member => !m.rule.good) ∘ fun p => p.1)).filter fun p => !decide (ns[p.2]? = some 0) := by
      rw [List.filter_filter]
      apply List.filter_congr
      intro p hp
      show (!decide (ns[p.2]? = some 0)) = (!decide (ns[p.2]? = some 0) && !p.1.rule.good)
      cases hg : p.1.rule.good with
      | false => simp
      | true => rw [decide_eq_true (hgoodkept p hp hg)]; rfl
    rw [e]
    exact List.filter_sublist
  · rw [hkept, hdrop, ← List.map_append]
    conv_rhs => rw [hz]
    exact (List.filter_append_perm _ _).map _

theorem forall2_comp {α β γ : Type} {P : α → β → Prop} {Q : β → γ → Prop} {S : α → γ → Prop} (h : ∀ a b c, P a b → Q b c → S a c)
    {l1 : List α} {l2 : List β} {l3 : List γ} (h1 : List.Forall₂ P l1 l2) (h2 : List.Forall₂ Q l2 l3) : List.Forall₂ S l1 l3 := by
  induction h1 generalizing l3 with
  | nil => cases h2; exact .nil
  | cons ha _ ih =>
    cases h2 with
    | cons hb h2 => exact .cons (h _ _ _ ha hb) (ih h2)

/-- **C44 (ruleset).** If no bad rule is kept by the stacked eval, then after both evals the rulesets have the same rules in the same
order, with the same criterions, predictions and marks, the same rules have been returned in the same order, and the sizes of the test
set are the same.
Missing: the activations of the rules (`C44_activation_false`), the activation and the criterion of the ruleset; see
`C44_ruleset_partial`. -/
theorem C44_same_partial {R : RsEnv} {k : Kind} {y : List Label} {xs : Option Xs} {keep : Bool} {w : Option WeightsArg} {kw : Rule.Kw}
    {s s1 s2 : RuleSet} {d1 d2 : List Member} (hc : CanEval R k y xs s) (hd : DifferentRules R.hasher s.rules) (hne : s.rules ≠ [])
    (h1 : eval (withStackedFit R false) y xs keep w false kw s = (.ok d1, s1))
    (h2 : evalStacked (withStackedFit R true) y xs keep w kw s = (.ok d2, s2)) (hg : ∀ m ∈ s2.rules, m.rule.good = true) :
    List.Forall₂ SameEvaluated s1.rules s2.rules ∧ d2.map (fun m => m.rule.cond) = d1.map (fun m => m.rule.cond) ∧
      s2.testSize = s1.testSize := by
  obtain ⟨l1, l2, kept, e1, e2, e3, e4, e5, e6, e7, e8, e9, e10, e11⟩ := C44_rules_partial hc hd hne h1 h2
  have hl1 : l1.length = s.rules.length := (List.Forall₂.length_eq e1).symm
  have hgk : ∀ m ∈ kept, m.rule.good = true := by
    intro m hm
    obtain ⟨j, hj⟩ := List.mem_iff_getElem?.1 hm
    obtain ⟨m', hj', -, hs⟩ := forall2_get e8 hj
    have := hg m' (List.mem_of_getElem? hj')
    rw [hs] at this
    exact this
  have hkept : kept = l2.filter fun m => m.rule.good := by
    refine List.Sublist.antisymm ?_ e6
    have := e7.filter fun m => m.rule.good
    rwa [List.filter_eq_self.2 hgk] at this
  have hall : List.Forall₂ (fun m1 m2 : Member => m2.kind = m1.kind ∧ ∃ r, SameEval r m1.rule m2.rule) l1 l2 := by
    rw [List.forall₂_iff_get]
    refine ⟨hl1.trans e2.symm, fun i hi1 hi2 => ?_⟩
    obtain ⟨g1, g2⟩ := e3 i (s.rules[i]'(by omega)) l1[i] l2[i] (by simp) (by simp) (by simp)
    exact ⟨g1, _, g2⟩
  refine ⟨?_, ?_, e11⟩
  · have hm : List.Forall₂ (fun m1 m2 : Member => m2.kind = m1.kind ∧ ∃ r, SameEval r m1.rule m2.rule) (l1.filter fun m => m.rule.good)
        (l2.filter fun m => m.rule.good) := forall2_filter (fun a b h => h.2.choose_spec.good.symm) hall
    have hm : List.Forall₂ SameEvaluated (l1.filter fun m => m.rule.good) (l2.filter fun m => m.rule.good) := by
      rw [List.forall₂_iff_get] at hm ⊢
      refine ⟨hm.1, fun i hi1 hi2 => ?_⟩
      obtain ⟨g1, r, g2⟩ := hm.2 i hi1 hi2
      have hgood := (List.mem_filter.1 (List.get_mem _ ⟨i, hi1⟩)).2
      obtain ⟨k1, k2⟩ := g2.same hgood
      refine ⟨g1, ⟨hgood, k1⟩, ?_⟩
      rw [k2]
    have h12 : List.Forall₂ SameEvaluated s1.rules (l2.filter fun m => m.rule.good) := by
      refine forall2_comp (P := fun m' m => SameButActivation m m') ?_ (List.Forall₂.flip e5) hm
      rintro a b c ⟨i1, i2⟩ ⟨j1, j2, j3⟩
      refine ⟨j1.trans i1.symm, ⟨by rw [i2]; exact j2.1, by rw [i2]; exact j2.2⟩, ?_⟩
      rw [j3, i2]
    rw [hkept] at e8
    refine forall2_comp ?_ h12 e8
    rintro a b c ⟨j1, j2, j3⟩ ⟨i1, i2⟩
    refine ⟨i1.trans j1, j2, ?_⟩
    rw [i2, j3]
  · have hd2 : d2 = l2.filter fun m => !m.rule.good := by
      refine List.Sublist.eq_of_length_le e9 ?_
      have h1 := e10.length_eq
      have h2 := (List.filter_append_perm (fun m : Member => m.rule.good) l2).length_eq
      rw [hkept] at h1
      simp only [List.length_append] at h1 h2
      omega
    rw [hd2, e4]
    have hm : List.Forall₂ (fun m1 m2 : Member => m2.kind = m1.kind ∧ ∃ r, SameEval r m1.rule m2.rule) (l1.filter fun m => !m.rule.good)
        (l2.filter fun m => !m.rule.good) := forall2_filter (fun a b h => by rw [h.2.choose_spec.good]) hall
    generalize l1.filter (fun m => !m.rule.good) = a at hm
    generalize l2.filter (fun m => !m.rule.good) = b at hm
    induction hm with
    | nil => rfl
    | cons h _ ih => rw [List.map_cons, List.map_cons, ih, h.2.choose_spec.cond]

/-! ## Examples -/

/-- Rules which have been fitted -/
def fittedOf (s : RuleSet) : RuleSet := { s with rules := s.rules.map fun m => { m with rule := { m.rule with fitted := true } } }

theorem classes_plain (u : List Bool) (l : List Rat) : ∀ c ∈ activated u (numbersOf l),
    (∃ x : Num, c = .num x ∧ x ≠ .nan) ∨ ∃ s, c = .text s ∧ s ≠ "" ∧ s ≠ "zero" := by
  intro c h
  left
  have h' : c ∈ numbersOf l := by
    unfold activated at h
    obtain ⟨p, hp, rfl⟩ := List.mem_map.1 h
    exact (List.of_mem_zip (List.mem_filter.1 hp).1).2
  obtain ⟨q, -, rfl⟩ := List.mem_map.1 h'
  exact ⟨.fin q, rfl, by simp⟩

/-- Numbers: the third rule is dropped by both evals. -/
example :
    let y := numbersOf [1, 2, 3, 6, 4]
    let p1 := eval (withStackedFit someRs false) y (some fiveXs) true none false {} (threeOf .regression)
    let p2 := evalStacked (withStackedFit someRs true) y (some fiveXs) true none {} (threeOf .regression)
    CanEval someRs .regression y (some fiveXs) (threeOf .regression) ∧ DifferentRules someRs.hasher (threeOf .regression).rules ∧
      (threeOf .regression).rules ≠ [] ∧ p1.1.toOption.map List.length = some 1 ∧ p2.1.toOption.map List.length = some 1 ∧
      p2.2.rules.map (fun m => m.rule.good) = [true, true] ∧
      p2.2.rules.map (fun m => m.rule.criterion) = [.num (.fin (195 / 74)), .num (.fin (975 / 296))] := by
  refine ⟨⟨rfl, ?_, ?_, ?_, by unfold DifferentTexts; decide +kernel, (fun e => by cases e), fun _ _ _ _ _ => rfl⟩, differentOf _,
    (fun e => by cases e), by decide +kernel, by decide +kernel, by decide +kernel, by decide +kernel⟩
  · have e : (threeOf .regression).rules = [memberOf .regression 0 [1, 1, 1], memberOf .regression 1 [0, 0, 1], memberOf .regression 3 [0, 0, 1]] := rfl
    rw [e]
    simp only [List.forall_mem_cons, List.not_mem_nil, false_imp_iff, implies_true, and_true]
    exact ⟨rfl, rfl, rfl⟩
  · intro x e
    cases e
    exact (show fiveXs.length ≠ 0 by decide)
  · have e : (threeOf .regression).rules = [memberOf .regression 0 [1, 1, 1], memberOf .regression 1 [0, 0, 1], memberOf .regression 3 [0, 0, 1]] := rfl
    rw [e]
    simp only [List.forall_mem_cons, List.not_mem_nil, false_imp_iff, implies_true, and_true]
    refine ⟨⟨[true, true, true, true, true], ?_, rfl, ?_⟩, ⟨[false, true, true, true, true], ?_, rfl, ?_⟩,
      ⟨[false, false, false, true, true], ?_, rfl, ?_⟩⟩
    all_goals first
      | exact (show Rule.evaluateActivation _ _ _ = _ by decide +kernel)
      | exact (show Rule.length _ ≠ 0 by decide +kernel)

/-- Classes: the same. -/
example :
    let R := kindRs .classification
    let y := numbersOf [1, 2, 2, 1, 1]
    let p1 := eval (withStackedFit R false) y (some fiveXs) true none false {} (threeOf .classification)
    let p2 := evalStacked (withStackedFit R true) y (some fiveXs) true none {} (threeOf .classification)
    CanEval R .classification y (some fiveXs) (threeOf .classification) ∧ DifferentRules R.hasher (threeOf .classification).rules ∧
      p1.1.toOption.map List.length = some 1 ∧ p2.1.toOption.map List.length = some 1 ∧
      p2.2.rules.map (fun m => m.rule.good) = [true, true] ∧
      p2.2.rules.map (fun m => m.rule.criterion) = [.num (.fin (3 / 5)), .num (.fin (1 / 2))] := by
  refine ⟨⟨rfl, ?_, ?_, ?_, by unfold DifferentTexts; decide +kernel, (fun e => by cases e), fun _ _ _ _ _ => rfl⟩, differentOf _,
    by decide +kernel, by decide +kernel, by decide +kernel, by decide +kernel⟩
  · have e : (threeOf .classification).rules =
      [memberOf .classification 0 [1, 1, 1], memberOf .classification 1 [0, 0, 1], memberOf .classification 3 [0, 0, 1]] := rfl
    rw [e]
    simp only [List.forall_mem_cons, List.not_mem_nil, false_imp_iff, implies_true, and_true]
    exact ⟨rfl, rfl, rfl⟩
  · intro x e
    cases e
    exact (show fiveXs.length ≠ 0 by decide)
  · have e : (threeOf .classification).rules =
      [memberOf .classification 0 [1, 1, 1], memberOf .classification 1 [0, 0, 1], memberOf .classification 3 [0, 0, 1]] := rfl
    rw [e]
    simp only [List.forall_mem_cons, List.not_mem_nil, false_imp_iff, implies_true, and_true]
    refine ⟨⟨[true, true, true, true, true], ?_, rfl, classes_plain _ _⟩, ⟨[false, true, true, true, true], ?_, rfl, classes_plain _ _⟩,
      ⟨[false, false, false, true, true], ?_, rfl, classes_plain _ _⟩⟩
    all_goals exact (show Rule.evaluateActivation _ _ _ = _ by decide +kernel)

/-- Without features, on the activations which the rules have: both rules stay. -/
example :
    let s := fittedOf (started [memberOf .regression 0 [1, 1, 1, 1, 0], memberOf .regression 1 [0, 1, 1, 1, 1]] false)
    let y := numbersOf [1, 2, 3, 6, 4]
    let p1 := eval (withStackedFit someRs false) y none false none false {} s
    let p2 := evalStacked (withStackedFit someRs true) y none false none {} s
    CanEval someRs .regression y none s ∧ p1.1.toOption = some [] ∧ p2.1.toOption = some [] ∧
      p2.2.rules.map (fun m => m.rule.criterion) = [.num (.fin (375 / 148)), .num (.fin (975 / 296))] := by
  refine ⟨⟨rfl, ?_, (fun x e => by cases e), ?_, by unfold DifferentTexts; decide +kernel, fun _ => .inl rfl, fun _ _ _ _ _ => rfl⟩,
    by decide +kernel, by decide +kernel, by decide +kernel⟩
  · intro m hm
    have e : m ∈ [memberOf .regression 0 [1, 1, 1, 1, 0], memberOf .regression 1 [0, 1, 1, 1, 1]].map
      (fun m => { m with rule := { m.rule with fitted := true } }) := hm
    simp only [List.map_cons, List.map_nil, List.mem_cons, List.not_mem_nil, or_false] at e
    rcases e with rfl | rfl <;> rfl
  · intro m hm
    have e : m ∈ [memberOf .regression 0 [1, 1, 1, 1, 0], memberOf .regression 1 [0, 1, 1, 1, 1]].map
      (fun m => { m with rule := { m.rule with fitted := true } }) := hm
    simp only [List.map_cons, List.map_nil, List.mem_cons, List.not_mem_nil, or_false] at e
    rcases e with rfl | rfl
    · exact ⟨[true, true, true, true, false], rfl, rfl, (show Rule.length _ ≠ 0 by decide +kernel)⟩
    · exact ⟨[false, true, true, true, true], rfl, rfl, (show Rule.length _ ≠ 0 by decide +kernel)⟩

/-! ## Where they differ -/

/-- **C44 is false for thresholds on what is not computed by `eval`:** rules whose activation is too rare are dropped without
`STACKED_FIT`; with it they are seen as bad but are kept and not returned, and the criterion of the ruleset is another one. -/
theorem C44_bad_kept_false :
    let s := fittedOf (started [member 0 [1, 1, 1, 1, 0], member 3 [0, 0, 0, 1, 1]] false)
    let p1 := eval (withStackedFit someRs false) (numbersOf [1, 2, 3, 6, 4]) none false none false {} s
    let p2 := evalStacked (withStackedFit someRs true) (numbersOf [1, 2, 3, 6, 4]) none false none {} s
    p1.1.toOption.map List.length = some 1 ∧ p1.2.rules.length = 1 ∧ p2.1.toOption = some [] ∧
      p2.2.rules.map (fun m => (m.rule.good, m.rule.badBecause)) = [(true, none), (false, some "coverage")] ∧
      p1.2.criterion = .num (.fin (375 / 148)) ∧ p2.2.criterion = .num (.fin (195 / 74)) :=
  ⟨by decide +kernel, by decide +kernel, by decide +kernel, by decide +kernel, by decide +kernel, by decide +kernel⟩

/-- **C44 is false for the class 'zero':** a rule which predicts it and is always right has the success rate 1 without `STACKED_FIT`
and 0 with it. -/
theorem C44_class_false :
    let R := kindRs .classification
    let s := started [⟨.classification, VoteProps.voter 0 [1, 1, 1] (.text "zero")⟩] false
    let y := List.replicate 5 (Label.text "zero")
    let p1 := eval (withStackedFit R false) y (some fiveXs) true none false {} s
    let p2 := evalStacked (withStackedFit R true) y (some fiveXs) true none {} s
    p1.1.toOption = some [] ∧ p2.1.toOption = some [] ∧ p1.2.rules.map (fun m => m.rule.criterion) = [.num (.fin 1)] ∧
      p2.2.rules.map (fun m => m.rule.criterion) = [.num (.fin 0)] :=
  ⟨by decide +kernel, by decide +kernel, by decide +kernel, by decide +kernel⟩

/-- **C44 is false for missing targets:** without `STACKED_FIT` they count as wrong predictions, with it they do not count. -/
theorem C44_missing_false :
    let R := kindRs .classification
    let s := started [⟨.classification, VoteProps.voter 0 [1, 1, 1] (.num (.fin 1))⟩] false
    let y := [Label.num (.fin 1), .num (.fin 1), .num .nan, .num .nan, .num (.fin 1)]
    let p1 := eval (withStackedFit R false) y (some fiveXs) true none false {} s
    let p2 := evalStacked (withStackedFit R true) y (some fiveXs) true none {} s
    p1.1.toOption = some [] ∧ p2.1.toOption = some [] ∧ p1.2.rules.map (fun m => m.rule.criterion) = [.num (.fin (3 / 5))] ∧
      p2.2.rules.map (fun m => m.rule.criterion) = [.num (.fin 1)] :=
  ⟨by decide +kernel, by decide +kernel, by decide +kernel, by decide +kernel⟩

/-- **C44 is false for regression rules without features:** without `STACKED_FIT` the criterion of the rule raises `ValueError`, with
it the rule gets one (and the criterion of the ruleset raises). -/
theorem C44_empty_false :
    let s := fittedOf (started [⟨.regression, { (member 0 [1, 1, 1, 1, 1]).rule with cond := ⟨some [], some [], some [], some [], false⟩ }⟩] false)
    let p1 := eval (withStackedFit freeRs false) (numbersOf [1, 2, 3, 6, 4]) (some fiveXs) false none false {} s
    let p2 := evalStacked (withStackedFit freeRs true) (numbersOf [1, 2, 3, 6, 4]) (some fiveXs) false none {} s
    p1.1.map List.length = .error .valueError ∧ p1.2.rules.map (fun m => m.rule.criterion) = [.none] ∧
      p2.2.rules.map (fun m => m.rule.criterion) = [.num (.fin (195 / 74))] :=
  ⟨by decide +kernel, by decide +kernel, by decide +kernel⟩

/-- **C44 is false for conditions with the same text:** the rules get the figures of one of them, then `IndexError` is raised. -/
theorem C44_texts_false :
    let R : RsEnv := { freeRs with condStr := fun _ => "a" }
    let s := fittedOf (started [member 0 [1, 1, 1, 1, 1], member 1 [0, 1, 1, 1, 1]] false)
    let p1 := eval (withStackedFit R false) (numbersOf [1, 2, 3, 6, 4]) (some fiveXs) false none false {} s
    let p2 := evalStacked (withStackedFit R true) (numbersOf [1, 2, 3, 6, 4]) (some fiveXs) false none {} s
    p1.1.toOption = some [] ∧ p2.1.map List.length = .error .indexError ∧
      p1.2.rules.map (fun m => m.rule.criterion) = [.num (.fin (195 / 74)), .num (.fin (975 / 296))] ∧
      p2.2.rules.map (fun m => m.rule.criterion) = [.num (.fin (975 / 296)), .none] :=
  ⟨by decide +kernel, by decide +kernel, by decide +kernel, by decide +kernel⟩

/-- **C44 is false for fitted rules without activation, as rules read from a file:** without `STACKED_FIT` `eval` on new features raises
`ValueError`, with it the rules are evaluated. -/
theorem C44_raises_false :
    let s := fittedOf (started [⟨.regression, { (member 0 [1, 1, 1, 1, 1]).rule with act := none }⟩] false)
    let p1 := eval (withStackedFit freeRs false) (numbersOf [1, 2, 3, 6, 4]) (some fiveXs) false none false {} s
    let p2 := evalStacked (withStackedFit freeRs true) (numbersOf [1, 2, 3, 6, 4]) (some fiveXs) false none {} s
    p1.1.map List.length = .error .valueError ∧ p2.1.toOption = some [] ∧
      p2.2.rules.map (fun m => m.rule.criterion) = [.num (.fin (195 / 74))] :=
  ⟨by decide +kernel, by decide +kernel, by decide +kernel⟩

/-- **C44 is false for the activations of the rules:** without `STACKED_FIT` the criterion of the ruleset writes the number of
activated rules into the activation of the first rule; with it, and with stacked activations, it does not. -/
theorem C44_activation_false :
    let y := numbersOf [1, 2, 3, 6, 4]
    let p1 := eval (withStackedFit someRs false) y (some fiveXs) true none false {} (threeOf .regression)
    let p2 := evalStacked (withStackedFit someRs true) y (some fiveXs) true none {} (threeOf .regression)
    p1.2.rules.map (fun m => m.rule.act) = [some [1, 2, 2, 2, 2], some [0, 1, 1, 1, 1]] ∧
      p2.2.rules.map (fun m => m.rule.act) = [some [1, 1, 1, 1, 1], some [0, 1, 1, 1, 1]] :=
  ⟨by decide +kernel, by decide +kernel⟩

/-- **C44 is false for the activation of the ruleset, when new features are not kept:** without `STACKED_FIT` and with rules dropped
it is cleared (C28), with it nothing is dropped. -/
theorem C44_cleared_false :
    let s := fittedOf (threeOf .regression)
    let p1 := eval (withStackedFit someRs false) (numbersOf [1, 2, 3, 6, 4]) (some fiveXs) false none false {} s
    let p2 := evalStacked (withStackedFit someRs true) (numbersOf [1, 2, 3, 6, 4]) (some fiveXs) false none {} s
    p1.2.act = some [0, 0, 0] ∧ p2.2.act = some [1, 1, 1] ∧ p1.2.rules.length = 1 ∧ p2.2.rules.length = 3 :=
  ⟨by decide +kernel, by decide +kernel, by decide +kernel, by decide +kernel⟩

end Verif.RuleSetProps
