import Verif.RowOrderClassLemmas
import Verif.RowOrderCritProps

/-!
# Properties: the order of the points and the criterion of a ruleset of classification rules (C67)
-/

namespace Verif.RowOrderProps

open Verif Spec RuleSet RowOrder RuleSetProps Vote
open _root_.Verif.RuleSet (voteEnv)

variable {R : RsEnv} {xs xs' : Xs} {y y' : List Label} {kw : Rule.Kw} {s t t' : RuleSet} {n n' : Nat} {on on' : Rule → Nat → Bool}
  {c : Rule → Label}

/-- A rule which is active at a point is active at the same point elsewhere. -/
theorem active_elsewhere (hp : SamePoints xs y xs' y') (hn : n = xs.length) {E : Env} {r : Rule}
    (h : activationOf E (some xs) r = .ok (some (vec n (on r)))) (h' : activationOf E (some xs') r = .ok (some (vec n' (on' r))))
    (ha : ∃ k < n, on r k = true) : ∃ k < n', on' r k = true := by
  obtain ⟨k, hk, hon⟩ := ha
  have hk' : k < (rowsOf xs).length := by rw [rowsOf_length, ← hn]; exact hk
  have hm : (rowsOf xs)[k] ∈ rowsOf xs' := (SamePairs.left (SamePoints.pairs hp)).mem_iff.1 (List.getElem_mem hk')
  obtain ⟨j, hj⟩ := List.mem_iff_getElem?.1 hm
  obtain ⟨-, h1, h2⟩ := Local.on_same (samePoint_of_rows hp (List.getElem?_eq_getElem hk') hj) h h'
  exact ⟨j, h1, by rw [← h2]; exact hon⟩

/-- **C67 (criterion of a ruleset of classification rules), partial.** Without weights and without stacked activations, `calc_criterion` on
the same points in another order gives the same criterion, if it goes through in both orders and some rule is active somewhere.
Missing: where no rule is active `predict` raises (`C66_raises_false`); with stacked activations the order can matter
(`C66_stacked_false`). -/
theorem C67_criterion_classes_partial (hp : SamePoints xs y xs' y') (hk : s.ruleType = some .classification)
    (hu : R.stackedFit = false ∨ s.stacked = none) (hc : Classifiers (voteEnv R .classification) (some xs) (rulesOf s) xs.length on c)
    (hc' : Classifiers (voteEnv R .classification) (some xs') (rulesOf s) xs'.length on' c)
    (hv : ∃ r ∈ rulesOf s, ∃ k < xs.length, on r k = true) (h : calcCriterion R y (some xs) none kw s = (.ok (), t))
    (h' : calcCriterion R y' (some xs') none kw s = (.ok (), t')) : t.criterion = t'.criterion := by
  obtain ⟨r, hr, ha⟩ := hv
  have hv : ∃ r ∈ rulesOf s, ∃ k < xs.length, on r k = true := ⟨r, hr, ha⟩
  have hv' : ∃ r ∈ rulesOf s, ∃ k < xs'.length, on' r k = true := ⟨r, hr, active_elsewhere hp rfl (hc.act r hr) (hc'.act r hr) ha⟩
  have hne : s.rules ≠ [] := by
    intro e
    simp [rulesOf, e] at hr
  obtain ⟨a, e, -⟩ := C24_predict_partial hk hu hc hv
  obtain ⟨b, e', -⟩ := C24_predict_partial hk hu hc' hv'
  have hpos := hc.points
  exact criterion_classes hp (by omega) hk hne e e' (fun i j q => LocalProps.C66_classes_partial q hk hu hc hc hv hv e e)
    (fun i j q => LocalProps.C66_classes_partial q hk hu hc hc' hv hv' e e') h h'

/-- **C67 (criterion of a ruleset of classification rules, weights), partial.** The same with weights which are not negative, if some rule
of non-zero weight is active somewhere.
Missing: as above; negative weights, see `C66_negative_false`. -/
theorem C67_criterion_weighted_classes_partial {w : WeightsArg} {wt : Rule → Rat} (hp : SamePoints xs y xs' y')
    (hk : s.ruleType = some .classification) (hu : R.stackedFit = false ∨ s.stacked = none)
    (hc : Classifiers (voteEnv R .classification) (some xs) (rulesOf s) xs.length on c)
    (hc' : Classifiers (voteEnv R .classification) (some xs') (rulesOf s) xs'.length on' c)
    (hw : WeightsGiven (voteEnv R .classification) (rulesOf s) wt w) (hpos : ∀ r ∈ rulesOf s, 0 ≤ wt r)
    (hv : ∃ r ∈ rulesOf s, wt r ≠ 0 ∧ ∃ k < xs.length, on r k = true) (h : calcCriterion R y (some xs) (some w) kw s = (.ok (), t))
    (h' : calcCriterion R y' (some xs') (some w) kw s = (.ok (), t')) : t.criterion = t'.criterion := by
  obtain ⟨r, hr, h1, ha⟩ := hv
  have hv : ∃ r ∈ rulesOf s, wt r ≠ 0 ∧ ∃ k < xs.length, on r k = true := ⟨r, hr, h1, ha⟩
  have hv' : ∃ r ∈ rulesOf s, wt r ≠ 0 ∧ ∃ k < xs'.length, on' r k = true :=
    ⟨r, hr, h1, active_elsewhere hp rfl (hc.act r hr) (hc'.act r hr) ha⟩
  have hne : s.rules ≠ [] := by
    intro e
    simp [rulesOf, e] at hr
  obtain ⟨a, e, -⟩ := C23_predict_partial hk hu hc hw hpos hv
  obtain ⟨b, e', -⟩ := C23_predict_partial hk hu hc' hw hpos hv'
  have hn := hc.points
  exact criterion_classes hp (by omega) hk hne e e'
    (fun i j q => LocalProps.C66_weighted_classes_partial q hk hu hc hc hw hpos hv hv e e)
    (fun i j q => LocalProps.C66_weighted_classes_partial q hk hu hc hc' hw hpos hv hv' e e') h h'

/-- The points of `LocalProps.whole` in another order -/
def turned : Xs := .arr ⟨1, [[.fin 20], [.fin 5], [.fin 0], [.fin 1]]⟩

theorem classifiers_turned :
    Classifiers (voteEnv someRs .classification) (some turned) LocalProps.three 4 (LocalProps.onIn turned) VoteProps.classOf := by
  refine ⟨by decide, ?_, ?_, ?_⟩
  · unfold LocalProps.three
    simp only [List.forall_mem_cons, List.not_mem_nil, false_imp_iff, implies_true, and_true]
    decide +kernel
  · unfold LocalProps.three
    simp only [List.forall_mem_cons, List.not_mem_nil, false_imp_iff, implies_true, and_true]
    decide +kernel
  · unfold LocalProps.three
    simp only [List.forall_mem_cons, List.not_mem_nil, false_imp_iff, implies_true, and_true]
    exact ⟨.inr ⟨_, rfl⟩, .inr ⟨_, rfl⟩, .inr ⟨_, rfl⟩⟩

/-- Two points are predicted, of which one has the class which was predicted. -/
example :
    let s := setWith .classification LocalProps.three
    let p := calcCriterion someRs [.text "red", .text "blue", .text "red", .text "red"] (some LocalProps.whole) none {} s
    let q := calcCriterion someRs [.text "red", .text "red", .text "red", .text "blue"] (some turned) none {} s
    p.1 = .ok () ∧ q.1 = .ok () ∧ p.2.criterion = .num (.fin (1 / 2)) ∧ p.2.criterion = q.2.criterion := by
  refine ⟨by decide +kernel, by decide +kernel, by decide +kernel, ?_⟩
  refine C67_criterion_classes_partial (R := someRs) (s := setWith .classification LocalProps.three) (xs := LocalProps.whole) (xs' := turned)
    (y := [.text "red", .text "blue", .text "red", .text "red"]) (y' := [.text "red", .text "red", .text "red", .text "blue"]) (kw := {})
    (by refine ⟨rfl, rfl, rfl, ?_⟩; decide +kernel) rfl (.inl rfl) LocalProps.classifiers_whole classifiers_turned
    ⟨_, List.mem_cons_self, 0, by decide, by decide +kernel⟩ (Prod.ext (by decide +kernel) rfl) (Prod.ext (by decide +kernel) rfl)

/-- With weights; the other hypotheses are those of the example on `C66_weighted_classes_partial`. -/
example :
    let s := setWith .classification LocalProps.three
    let w : WeightsArg := .series (VoteProps.someWeights 1 0 2)
    let p := calcCriterion someRs [.text "red", .text "blue", .text "red", .text "red"] (some LocalProps.whole) (some w) {} s
    let q := calcCriterion someRs [.text "red", .text "red", .text "red", .text "blue"] (some turned) (some w) {} s
    p.1 = .ok () ∧ q.1 = .ok () ∧ p.2.criterion = .num (.fin (1 / 3)) ∧ p.2.criterion = q.2.criterion := by
  decide +kernel

end Verif.RowOrderProps
