import Verif.RowOrderSetLemmas
import Verif.RowOrderProps

/-!
# Properties: the order of the points in `fit` of a ruleset (C67)
-/

namespace Verif.RowOrderProps

open Verif Spec RuleSet RowOrder RuleSetProps

open Classical in
/-- **C67 (ruleset).** `fit` of a ruleset on the same points in another order drops the same rules and keeps the same rules, up to the order
of their activation vectors; the ruleset has the same names, indexes, size and coverage, and its activation and stacked activations are
reordered.  Missing: that `fit` raises for both orders or for none, which depends on whether there is room for the union of the activations; see
`C67_set_raises` for the case in which there is. -/
theorem C67_set_partial {R : RsEnv} (hR : ∀ k, OrderFree (R.ofKind k)) {xs xs' : Xs} {y y' : List Label} (hp : SamePoints xs y xs' y')
    (h0 : xs.length ≠ 0) {force : Bool} {kw : Rule.Kw} {s t t' : RuleSet} {dropped dropped' : List Member} (hne : s.rules ≠ [])
    (h : fit R y (some xs) force kw s = (.ok dropped, t)) (h' : fit R y' (some xs') force kw s = (.ok dropped', t')) :
    List.Forall₂ (TwinMembers y y') dropped dropped' ∧ List.Forall₂ (TwinMembers y y') t.rules t'.rules ∧
      t.names = t'.names ∧ t.indexes = t'.indexes ∧ t.trainSize = t'.trainSize ∧
      (t.rules ≠ [] → (∃ v v', t.act = some v ∧ t'.act = some v' ∧ SameActive v y v' y') ∧ t.rulesetCoverage = t'.rulesetCoverage) ∧
      (s.stack = true → DifferentTexts R t.rules → ∃ c c', t.stacked = some c ∧ t'.stacked = some c' ∧ SameColumns y y' c c') := by
  have hl := length_order hp
  have h0' : xs'.length ≠ 0 := by rw [← hl.1]; exact h0
  have hany : ∀ {x : Xs}, x.length ≠ 0 → ¬ (some x).any (fun x => x.length = 0) = true := by
    intro x hx
    simpa using hx
  rcases fit_ok h with ⟨-, -, e | e | ⟨e, -⟩⟩ | ⟨l, s1, hd, ha, rfl, rfl⟩
  · exact absurd e (hany h0)
  · exact absurd e hne
  · cases e
  rcases fit_ok h' with ⟨-, -, e | e | ⟨e, -⟩⟩ | ⟨l', s1', hd', ha', rfl, rfl⟩
  · exact absurd e (hany h0')
  · exact absurd e hne
  · cases e
  have hj := eachDone_joint hR hp h0 hd hd'
  obtain ⟨q1, q2⟩ := afterFit_ok (s := { s with rules := l }) ha
  obtain ⟨q1', q2'⟩ := afterFit_ok (s := { s with rules := l' }) ha'
  have hr : s1.rules = l.filter fun m => Stays R.hasher l m := by
    rcases q2 with ⟨hb, hr, -, -⟩ | ⟨hk, -, -⟩
    · rw [hr]; exact stays_none hb
    · exact keepRules_bad hk
  have hr' : s1'.rules = l'.filter fun m => Stays R.hasher l' m := by
    rcases q2' with ⟨hb, hr, -, -⟩ | ⟨hk, -, -⟩
    · rw [hr]; exact stays_none hb
    · exact keepRules_bad hk
  have hk : List.Forall₂ (Joint xs xs') s1.rules s1'.rules := by
    rw [hr, hr']
    exact filter_forall₂ (fun a b hab => by rw [decide_eq_decide]; exact stays_joint hj hab) hj
  have hbad : List.Forall₂ (Joint xs xs') ((badRules l).map (·.1)) ((badRules l').map (·.1)) := by
    rw [badRules_fst, badRules_fst]
    exact filter_forall₂ (fun a b hab => by rw [hab.good]) hj
  have hsame : badRules l = [] ↔ badRules l' = [] := by
    have := hbad.length_eq
    rw [List.length_map, List.length_map] at this
    rw [← List.length_eq_zero_iff, ← List.length_eq_zero_iff, this]
  have hnames : s1.names = s1'.names ∧ s1.indexes = s1'.indexes := by
    have hadd := addNames_joint (R := R) hk s.names s.indexes
    by_cases hb : badRules l = []
    · have hb' := hsame.1 hb
      rw [hb] at ha
      rw [hb'] at ha'
      obtain ⟨g1, g2⟩ := afterFit_none ha
      obtain ⟨g1', g2'⟩ := afterFit_none ha'
      exact ⟨g1.trans g1'.symm, g2.trans g2'.symm⟩
    · have hb' : ¬ badRules l' = [] := fun e => hb (hsame.2 e)
      rcases q2 with ⟨e, -⟩ | ⟨-, g1, g2⟩
      · exact absurd e hb
      rcases q2' with ⟨e, -⟩ | ⟨-, g1', g2'⟩
      · exact absurd e hb'
      exact ⟨g1.trans (hadd.1.trans g1'.symm), g2.trans (hadd.2.trans g2'.symm)⟩
  obtain ⟨p1, p2⟩ := joint_points hk
  refine ⟨hbad.imp fun _ _ => Joint.twins hp, hk.imp fun _ _ => Joint.twins hp, hnames.1, hnames.2, ?_, ?_, ?_⟩
  · show Thresholds.Attr.num (.fin y.length) = .num (.fin y'.length)
    rw [hl.2]
  · intro hr0
    have hr0 : s1.rules ≠ [] := hr0
    have hr0' : s1'.rules ≠ [] := by
      intro e
      rw [e] at hk
      cases hk' : s1.rules with
      | nil => exact hr0 hk'
      | cons a b => rw [hk'] at hk; cases hk
    have e1 := evaluateSelf_stored p1 hr0 (q1.recomputed (.inr (.inl rfl)))
    have e2 := evaluateSelf_stored p2 hr0' (q1'.recomputed (.inr (.inl rfl)))
    obtain ⟨f, g1, g2⟩ := covered_joint hk
    rw [g1] at e1
    rw [g2] at e2
    have hs := bits_active hp f
    refine ⟨⟨_, _, e1, e2, hs⟩, ?_⟩
    exact coverage_active e1 e2 hs fun e => h0 ((rowsOf_length xs).symm.trans (by rw [← e, bits, List.length_map]))
  · intro hst hdt
    obtain ⟨c1, c2⟩ := columns_joint (R := R) hp hk
    exact ⟨_, _, evaluateStacked_stored p1 hdt (q1.stacked hst (.inr (.inl rfl))),
      evaluateStacked_stored p2 (c2 hdt) (q1'.stacked hst (.inr (.inl rfl))), c1⟩

open Classical in
/-- **C67 (ruleset, `eval`).** `eval` of a ruleset on the same points in another order, with or without `keep_new_activations`, drops the
same rules and keeps the same rules, up to their activation vectors: criteria, flags and reasons are equal.
Missing: the criterion of the ruleset (see `C67_criterion`), and that `eval` raises for both orders or for none. -/
theorem C67_set_eval_partial {R : RsEnv} (hR : ∀ k, OrderFree (R.ofKind k)) {xs xs' : Xs} {y y' : List Label} (hp : SamePoints xs y xs' y')
    (h0 : xs.length ≠ 0) {keep : Bool} {wts : Option Vote.WeightsArg} {force : Bool} {kw : Rule.Kw} {s t t' : RuleSet} {dropped dropped' : List Member}
    (hne : s.rules ≠ []) (h : eval R y (some xs) keep wts force kw s = (.ok dropped, t))
    (h' : eval R y' (some xs') keep wts force kw s = (.ok dropped', t')) :
    List.Forall₂ (TwinMembers y y') dropped dropped' ∧ List.Forall₂ SameButActivation t.rules t'.rules ∧ t.testSize = t'.testSize := by
  have hl := length_order hp
  have h0' : xs'.length ≠ 0 := by rw [← hl.1]; exact h0
  have hsize : ∀ {xs : Xs} {y : List Label} {d : List Member} {t : RuleSet}, xs.length ≠ 0 →
      eval R y (some xs) keep wts force kw s = (.ok d, t) → t.testSize = .num (.fin y.length) := by
    intro xs y d t hx he
    rcases eval_ok he with ⟨-, -, e | e⟩ | ⟨l, s1, s2, keep', -, -, -, -, rfl, -⟩
    · simp at e; exact absurd e hx
    · exact absurd e hne
    · rfl
  refine ⟨?_, ?_, ?_⟩
  · obtain ⟨l, d1, rfl, -⟩ := C28_eval (fun x e => by cases e; exact h0) hne h
    obtain ⟨l', d1', rfl, -⟩ := C28_eval (fun x e => by cases e; exact h0') hne h'
    exact filter_forall₂ (fun a b hab => by rw [twins_good hab]) (eachEval_twins hR hp d1 d1')
  · obtain ⟨l, d1, -, d2⟩ := C28_eval (fun x e => by cases e; exact h0) hne h
    obtain ⟨l', d1', -, d2'⟩ := C28_eval (fun x e => by cases e; exact h0') hne h'
    have ht := eachEval_twins hR hp d1 d1'
    have hk : List.Forall₂ (TwinMembers y y') (l.filter fun m => Stays R.hasher l m) (l'.filter fun m => Stays R.hasher l' m) :=
      filter_forall₂ (fun a b hab => by rw [decide_eq_decide]; exact stays_twins ht hab) ht
    have hback : ∀ {a b : List Member}, List.Forall₂ SameButActivation a b → List.Forall₂ SameButActivation b a := by
      intro a b hab
      refine hab.flip.imp fun m m' hm => ⟨hm.1.symm, ?_⟩
      rw [hm.2]
    have hcomp : ∀ {a b c : List Member} {S : Member → Member → Prop}, (∀ m m', S m m' → SameButActivation m m') →
        List.Forall₂ SameButActivation a b → List.Forall₂ S b c → List.Forall₂ SameButActivation a c := by
      intro a b c S hS hab hbc
      induction hab generalizing c with
      | nil => cases hbc; exact .nil
      | @cons m m' a b hm _ ih =>
        cases hbc with
        | @cons _ m2 _ c hm2 hr =>
          obtain ⟨e1, e2⟩ := hS _ _ hm2
          refine .cons ⟨e1.trans hm.1, ?_⟩ (ih hr)
          rw [e2, hm.2]
    exact hcomp (fun _ _ q => q) (hcomp (fun m m' q => ⟨q.1, q.2.1⟩) (hback d2) hk) d2'
  · rw [hsize h0 h, hsize h0' h', hl.2]

/-- The targets of `someY` in the order of `movedXs` -/
def movedSome : List Label := [.num (.fin 6), .num (.fin 3), .num (.fin 1), .num (.fin 2)]

theorem movedSome_same : SamePoints RuleProps.someXs someY movedXs movedSome := by
  refine ⟨rfl, rfl, rfl, ?_⟩
  decide +kernel

/-- Three rules fitted in two orders: the third one is dropped in both. -/
example :
    let p := fit someRs someY (some RuleProps.someXs) false {} unfitted
    let q := fit someRs movedSome (some movedXs) false {} unfitted
    (∀ k, OrderFree (someRs.ofKind k)) ∧ SamePoints RuleProps.someXs someY movedXs movedSome ∧ unfitted.rules ≠ [] ∧ unfitted.stack = true ∧
      p.1.toOption.map (fun d => d.map fun m => m.rule.cond.bmins) = some [some [.fin 2]] ∧
      q.1.toOption.map (fun d => d.map fun m => m.rule.cond.bmins) = some [some [.fin 2]] ∧
      p.2.stacked = some [("a", [1, 1, 1, 1]), ("b", [0, 1, 1, 0])] ∧ q.2.stacked = some [("a", [1, 1, 1, 1]), ("b", [0, 1, 0, 1])] ∧
      p.2.rules.map (fun m => m.rule.prediction) = [.label (.num (.fin 3)), .label (.num (.fin (5 / 2)))] ∧
      q.2.rules.map (fun m => m.rule.prediction) = [.label (.num (.fin 3)), .label (.num (.fin (5 / 2)))] := by
  refine ⟨fun k => ⟨fun _ _ _ => rfl, fun _ _ _ _ _ => rfl⟩, movedSome_same, (fun e => by cases e), by decide +kernel, by decide +kernel,
    by decide +kernel, by decide +kernel, by decide +kernel, by decide +kernel, by decide +kernel⟩

/-- The ruleset of the last example after `fit`, evaluated in two orders, with and without new activations: same criteria -/
example :
    let R := { someRs with storedRaw := fun _ => false }
    let s := (fit R someY (some RuleProps.someXs) false {} unfitted).2
    let p := fun keep => eval R someY (some RuleProps.someXs) keep none false {} s
    let q := fun keep => eval R movedSome (some movedXs) keep none false {} s
    s.rules ≠ [] ∧ (∀ keep, (p keep).1.toOption.map List.length = some 0 ∧ (q keep).1.toOption.map List.length = some 0 ∧
      (p keep).2.rules.map (fun m => m.rule.criterion) = (q keep).2.rules.map (fun m => m.rule.criterion)) ∧
      ((p true).2.rules.map fun m => m.rule.act) = [some [1, 1, 1, 1], some [0, 1, 1, 0]] ∧
      ((q true).2.rules.map fun m => m.rule.act) = [some [1, 1, 1, 1], some [0, 1, 0, 1]] := by
  refine ⟨?_, ?_, by decide +kernel, by decide +kernel⟩
  · intro e
    have := congrArg List.length e
    revert this
    decide +kernel
  · decide +kernel

end Verif.RowOrderProps
