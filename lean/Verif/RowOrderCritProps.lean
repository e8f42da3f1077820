import Verif.RowOrderCritLemmas
import Verif.RowOrderSetProps

/-!
# Properties: the order of the points and the criterion of a ruleset (C67)
-/

namespace Verif.RowOrderProps

open Verif Spec RuleSet RowOrder RuleSetProps

/-- **C67 (criterion of a ruleset).** For rulesets of regression rules, `calc_criterion` on the same points in another order gives the
same criterion, with weights or without, with stacked activations or without, for any measure, if it goes through in both orders. -/
theorem C67_criterion {R : RsEnv} {xs xs' : Xs} {y y' : List Label} (hp : SamePoints xs y xs' y') (h0 : xs.length ≠ 0)
    {w : Option Vote.WeightsArg} {kw : Rule.Kw} {s t t' : RuleSet} (hk : s.ruleType = some .regression) (hne : s.rules ≠ [])
    (h : calcCriterion R y (some xs) w kw s = (.ok (), t)) (h' : calcCriterion R y' (some xs') w kw s = (.ok (), t')) :
    t.criterion = t'.criterion := by
  obtain ⟨l, s1, hl, hc⟩ := calcCriterion_steps hk hne h
  obtain ⟨l', s1', hl', hc'⟩ := calcCriterion_steps hk hne h'
  have hloc : ∀ i j, SamePoint xs i xs j → Same i j l l := fun i j e => LocalProps.C66_regression_partial e hk hne hl hl
  have hloc' : ∀ i j, SamePoint xs i xs' j → Same i j l l' := fun i j e => LocalProps.C66_regression_partial e hk hne hl hl'
  have hpairs := SamePoints.pairs hp
  have hrow : ∃ i j, SamePoint xs i xs' j := by
    cases hr : rowsOf xs with
    | nil => exact absurd (by rw [← rowsOf_length, hr]; rfl) h0
    | cons r rest =>
      have hm : r ∈ rowsOf xs' := (SamePairs.left hpairs).mem_iff.1 (by rw [hr]; exact List.mem_cons_self)
      obtain ⟨j, hj⟩ := List.mem_iff_getElem?.1 hm
      exact ⟨0, j, samePoint_of_rows hp (by rw [hr]; rfl) hj⟩
  obtain ⟨i, j, hij⟩ := hrow
  obtain ⟨x, hx, hx'⟩ := hloc' i j hij
  rcases hc with e | ⟨p, q, ys, c, h1, h2, h3, h4, h5⟩
  · rw [e] at hx; cases hx
  rcases hc' with e | ⟨p', q', ys', c', h1', h2', h3', h4', h5'⟩
  · rw [e] at hx'; cases hx'
  have hlen : l.length = y.length := by
    rw [← mapM_length h1, ← mapM_length h2, regression_lengths h4, mapM_length h3]
  have hlen' : l'.length = y'.length := by
    rw [← mapM_length h1', ← mapM_length h2', regression_lengths h4', mapM_length h3']
  have : Inhabited Vote.Cell := ⟨.frame⟩
  have : Inhabited Label := ⟨.num .nan⟩
  have : Inhabited Num := ⟨.nan⟩
  have hs := local_pairs hp hlen hlen' hloc hloc'
  have e1 : q = l.map _ := (mapM_as_map h2).trans ((congrArg _ (mapM_as_map h1)).trans (List.map_map ..))
  have e1' : q' = l'.map _ := (mapM_as_map h2').trans ((congrArg _ (mapM_as_map h1')).trans (List.map_map ..))
  have e3 := mapM_as_map h3
  have e3' := mapM_as_map h3'
  have hq : SamePairs q ys q' ys' := by
    rw [e1, e1', e3, e3']
    exact SamePairs.map hs _ _
  rw [criterion_order hq, h4'] at h4
  cases h4
  rw [h5, h5']

/-- **C67 (ruleset, `eval` without new activations).** If the new activations are not kept and all rules are fitted, `eval` of a ruleset
on the same points in another order drops the very same rules, and gives the same criterion if they are regression rules.  Missing: that `eval` raises for both orders or for none; the criterion for classification rules, see `C67_criterion_classes_partial`,
which can depend on the order with stacked activations (`C66_stacked_false`). -/
theorem C67_set_eval_same_partial {R : RsEnv} (hR : ∀ k, OrderFree (R.ofKind k)) {xs xs' : Xs} {y y' : List Label} (hp : SamePoints xs y xs' y')
    (h0 : xs.length ≠ 0) {wts : Option Vote.WeightsArg} {force : Bool} {kw : Rule.Kw} {s t t' : RuleSet} {dropped dropped' : List Member}
    (hne : s.rules ≠ []) (hf : ∀ m ∈ s.rules, m.rule.fitted = true) (h : eval R y (some xs) false wts force kw s = (.ok dropped, t))
    (h' : eval R y' (some xs') false wts force kw s = (.ok dropped', t')) :
    dropped = dropped' ∧ t.testSize = t'.testSize ∧
      (t.ruleType = some .regression → t.rules ≠ [] → t.criterion = t'.criterion) := by
  have hl := length_order hp
  have h0' : xs'.length ≠ 0 := by rw [← hl.1]; exact h0
  have hfit : (s.rules.all fun m => m.rule.fitted) = true := List.all_eq_true.2 hf
  rcases eval_ok h with ⟨-, -, e | e⟩ | ⟨l, s1, s2, keep, hkeep, hd, ha, hc, rfl, rfl⟩
  · simp at e; exact absurd e h0
  · exact absurd e hne
  rcases eval_ok h' with ⟨-, -, e | e⟩ | ⟨l', s1', s2', keep', hkeep', hd', ha', hc', rfl, rfl⟩
  · simp at e; exact absurd e h0'
  · exact absurd e hne
  rw [hfit] at hkeep hkeep'
  obtain rfl : keep = false := by simpa using hkeep
  obtain rfl : keep' = false := by simpa using hkeep'
  have hll : l = l' := by
    unfold EachDone at hd hd'
    clear ha ha' hne hfit hf h h'
    generalize s.rules = rules at hd hd'
    induction hd generalizing l' with
    | nil => cases hd'; rfl
    | @cons m m1 rest l hm _ ih =>
      cases hd' with
      | @cons _ m1' _ l'' hm' hr =>
        rw [ih l'' hr]
        congr 1
        obtain ⟨-, g2, -⟩ := eval_order (P := fun a a' => a = a') (hR m.kind) (fun _ _ => .inl) hp false force kw (r := m.rule) (r' := m.rule) ⟨rfl, rfl⟩
        have e : Rule.eval (R.ofKind m.kind) y (some xs) false force kw m.rule = (.ok (), m1.rule) := hm.2
        have e' : Rule.eval (R.ofKind m.kind) y' (some xs') false force kw m.rule = (.ok (), m1'.rule) := hm'.2
        have hleave : ∀ (y : List Label) (xs : Xs), (Rule.eval (R.ofKind m.kind) y (some xs) false force kw m.rule).2.act = m.rule.act := by
          intro y xs
          exact RuleFlag.leaves_eval (f := Rule.act) (fun _ _ q => (congrArg Rule.act q :)) _ _ _ _ _ _ (fun q => by cases q) (fun _ _ => rfl)
            (fun _ _ => rfl) (fun _ _ => rfl) m.rule
        have a1 := hleave y xs
        have a2 := hleave y' xs'
        rw [e] at g2 a1
        rw [e'] at g2 a2
        obtain ⟨k1, r1⟩ := m1
        obtain ⟨k2, r2⟩ := m1'
        simp only at g2 a1 a2
        have hr : r2 = r1 := by
          rw [g2, a2, ← a1]
        have hk : k1 = k2 := hm.1.trans hm'.1.symm
        rw [hr, hk]
  subst hll
  simp only [Option.isSome_some, Bool.and_false] at ha ha'
  rw [ha] at ha'
  obtain ⟨-, rfl⟩ := Prod.mk.inj ha'
  refine ⟨rfl, ?_, fun hk hr => ?_⟩
  · show Thresholds.Attr.num (.fin y.length) = .num (.fin y'.length)
    rw [hl.2]
  · simp only [Bool.false_eq_true, if_false] at hc hc'
    have hfr := calcCriterion_frame (R := R) y (some xs) wts kw s1
    rw [hc] at hfr
    obtain ⟨f1, -, -, -, -, -, f2⟩ := hfr
    have hr1 : s1.rules ≠ [] := by
      intro e
      rw [e] at f1
      cases hr2 : s2.rules with
      | nil => exact hr hr2
      | cons a b => rw [hr2] at f1; cases f1
    exact C67_criterion (t := s2) (t' := s2') hp h0 (f2.symm.trans hk) hr1 hc hc'

/-- The hypotheses of `C67_set_eval_same_partial` and `C67_criterion`, and the criterion -/
example :
    let R := { someRs with storedRaw := fun _ => false }
    let s := (fit R someY (some RuleProps.someXs) false {} unfitted).2
    let p := eval R someY (some RuleProps.someXs) false none false {} s
    let q := eval R movedSome (some movedXs) false none false {} s
    SamePoints RuleProps.someXs someY movedXs movedSome ∧ (s.rules.map fun m => m.rule.fitted) = [true, true] ∧ p.1.toOption.map List.length = some 0 ∧
      q.1.toOption.map List.length = some 0 ∧ p.2.ruleType = some .regression ∧ p.2.rules.length = 2 ∧ p.2.criterion = q.2.criterion ∧
      p.2.criterion ≠ .num .nan := by
  refine ⟨movedSome_same, ?_⟩
  decide +kernel

end Verif.RowOrderProps
