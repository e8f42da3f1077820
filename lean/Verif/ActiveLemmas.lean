import Verif.ActiveSpec

/-!
# Rulesets with the same active rules at a point: lemmas
-/

namespace Verif.Active

open Verif Spec Vote RuleSet RuleSetProps

variable {on : Rule → Nat → Bool} {i : Nat} {rules rules' : List Rule}

theorem activeSum_same (h : SameVoters on i rules rules') (f : Rule → Rat) : activeSum rules on f i = activeSum rules' on f i :=
  (h.map f).sum_eq

theorem activeCount_same (h : SameVoters on i rules rules') : activeCount rules on i = activeCount rules' on i := h.length_eq

theorem votes_same (h : SameVoters on i rules rules') (c : Rule → Label) (wt : Rule → Rat) (k : Label) :
    votes rules on c wt k i = votes rules' on c wt k i := by
  have key : ∀ l : List Rule, (l.filter fun r => on r i ∧ c r = k) = (l.filter fun r => on r i).filter fun r => c r = k := by
    intro l
    rw [List.filter_filter]
    congr 1
    funext r
    simp [Bool.and_comm]
  unfold votes
  rw [key, key]
  exact ((h.filter _).map wt).sum_eq

theorem mean_same (h : SameVoters on i rules rules') {p wt : Rule → Rat} {x x' : Num} (hx : IsWeightedMean rules on p wt i x)
    (hx' : IsWeightedMean rules' on p wt i x') : x = x' := by
  by_cases h0 : activeSum rules on wt i = 0
  · rw [hx.2 h0, hx'.2 (by rw [← activeSum_same h]; exact h0)]
  · obtain ⟨m, rfl, hm, -⟩ := hx.1 h0
    obtain ⟨m', rfl, hm', -⟩ := hx'.1 (by rw [← activeSum_same h]; exact h0)
    rw [← activeSum_same h, ← activeSum_same h, ← hm] at hm'
    rw [mul_right_cancel₀ h0 hm']

theorem plainMean_same (h : SameVoters on i rules rules') {p : Rule → Rat} {x x' : Num} (hx : IsMean rules on p i x)
    (hx' : IsMean rules' on p i x') : x = x' := by
  by_cases h0 : activeCount rules on i = 0
  · rw [hx.2 h0, hx'.2 (by rw [← activeCount_same h]; exact h0)]
  · obtain ⟨m, rfl, hm, -⟩ := hx.1 h0
    obtain ⟨m', rfl, hm', -⟩ := hx'.1 (by rw [← activeCount_same h]; exact h0)
    rw [← activeSum_same h, ← activeCount_same h, ← hm] at hm'
    rw [mul_right_cancel₀ (by exact_mod_cast h0) hm']

theorem vote_eq {on' : Rule → Nat → Bool} {c : Rule → Label} {wt : Rule → Rat}
    (h : ∀ k, votes rules on c wt k i = votes rules' on' c wt k i) {n : Nat} (hi : i < n) {l l' : List Label}
    (hl : IsVote rules on c wt n l) (hl' : IsVote rules' on' c wt n l') : l[i]? = l'[i]? := by
  have hw : ∀ k, Wins rules on c wt k i ↔ Wins rules' on' c wt k i := fun k => by
    unfold Wins
    simp only [h]
  by_cases hex : ∃ k, Wins rules on c wt k i
  · obtain ⟨k, hk⟩ := hex
    rw [(hl.2 i hi).1 k hk, (hl'.2 i hi).1 k ((hw k).1 hk)]
  · rw [(hl.2 i hi).2 fun k hk => hex ⟨k, hk⟩, (hl'.2 i hi).2 fun k hk => hex ⟨k, (hw k).2 hk⟩]

theorem vote_same (h : SameVoters on i rules rules') {c : Rule → Label} {wt : Rule → Rat} {n : Nat} (hi : i < n) {l l' : List Label}
    (hl : IsVote rules on c wt n l) (hl' : IsVote rules' on c wt n l') : l[i]? = l'[i]? :=
  vote_eq (votes_same h c wt) hi hl hl'

theorem predict_weightedMeans {R : RsEnv} {xs : Option Xs} {w : WeightsArg} {n : Nat} {p wt : Rule → Rat} {s : RuleSet}
    (h : WeightedMeans R xs w n on p wt s) :
    ∃ l : List Num, predict R xs (some w) s = (.ok (l.map fun x => .label (.num x)), s) ∧ l.length = n ∧
      ∀ i < n, ∃ x, l[i]? = some x ∧ IsWeightedMean (rulesOf s) on p wt i x := by
  rcases h.mode with ⟨hu, hv, hs⟩ | ⟨⟨hu, hk, hd, c, hc, hx⟩, hv⟩
  · exact C21_predict_partial h.kind hu h.rules h.weights h.positive hv hs
  · exact C21_predict_stacked_partial h.kind hk hu hc hx h.rules h.weights h.positive hd hv

theorem predict_plainMeans {R : RsEnv} {xs : Option Xs} {n : Nat} {p : Rule → Rat} {s : RuleSet} (h : PlainMeans R xs n on p s) :
    ∃ l : List Num, predict R xs none s = (.ok (l.map fun x => .label (.num x)), s) ∧ l.length = n ∧
      ∀ i < n, ∃ x, l[i]? = some x ∧ IsMean (rulesOf s) on p i x := by
  rcases h.mode with ⟨hu, hs, hc, ha⟩ | ⟨hu, hk, hd, c, hc, hx⟩
  · exact C22_predict_partial h.kind hu h.nonempty h.rules hs hc ha
  · exact C22_predict_stacked_partial h.kind hk hu hc hx h.nonempty h.rules hd

theorem predict_weightedVotes {R : RsEnv} {xs : Option Xs} {w : WeightsArg} {n : Nat} {c : Rule → Label} {wt : Rule → Rat} {s : RuleSet}
    (h : WeightedVotes R xs w n on c wt s) :
    ∃ l : List Label, predict R xs (some w) s = (.ok (l.map .label), s) ∧ IsVote (rulesOf s) on c wt n l :=
  C23_predict_partial h.kind h.mode h.rules h.weights h.positive h.active

theorem predict_plainVotes {R : RsEnv} {xs : Option Xs} {n : Nat} {c : Rule → Label} {s : RuleSet} (h : PlainVotes R xs n on c s) :
    ∃ l : List Label, predict R xs none s = (.ok (l.map .label), s) ∧ IsVote (rulesOf s) on c (fun _ => 1) n l := by
  rcases h.mode with ⟨hu, hv⟩ | ⟨⟨hu, hk, hd, c', hc, hx⟩, ht, hn, i, hi, j, hj, hij, ⟨a, ha⟩, b, hb⟩
  · exact C24_predict_partial h.kind hu h.rules hv
  · exact C24_predict_stacked_partial h.kind hk hu hc hx h.rules hd ht hn hi hj hij ha hb

theorem predict_stackedVotes {R : RsEnv} {xs : Option Xs} {w : WeightsArg} {n : Nat} {c : Rule → Label} {wt : Rule → Rat}
    {top : Rule → Nat → Bool} {s : RuleSet} (h : StackedVotes R xs w n on c wt top s) :
    ∃ l : List Label, predict R xs (some w) s = (.ok (l.map .label), s) ∧ IsVote (rulesOf s) top c (fun _ => 1) n l := by
  obtain ⟨i, hi, j, hj, hij, ⟨a, ha⟩, b, hb⟩ := h.decided
  obtain ⟨hu, hk, hd, c', hc, hx⟩ := h.stacked
  exact C23_predict_stacked_partial h.kind hk hu hc hx h.rules h.weights hd h.type h.named h.heaviest hi hj hij ha hb

/-- The heaviest active rules are the same. -/
theorem heaviest_same {top top' : Rule → Nat → Bool} {wt : Rule → Rat} (h : SameVoters on i rules rules')
    (ht : ∀ r ∈ rules, top r i = true ↔ HeaviestAt rules on wt i r) (ht' : ∀ r ∈ rules', top' r i = true ↔ HeaviestAt rules' on wt i r)
    (c : Rule → Label) (k : Label) : votes rules top c (fun _ => 1) k i = votes rules' top' c (fun _ => 1) k i := by
  have hm : ∀ r, (r ∈ rules ∧ on r i = true) ↔ (r ∈ rules' ∧ on r i = true) := fun r => by
    have := h.mem_iff (a := r)
    simpa only [List.mem_filter] using this
  have hh : ∀ r, HeaviestAt rules on wt i r ↔ HeaviestAt rules' on wt i r := fun r =>
    and_congr_right fun _ => and_congr_right fun _ =>
      ⟨fun q s hs h0 ho => q s ((hm s).2 ⟨hs, ho⟩).1 h0 ho, fun q s hs h0 ho => q s ((hm s).1 ⟨hs, ho⟩).1 h0 ho⟩
  classical
  have key : ∀ (l : List Rule) (t : Rule → Nat → Bool), (∀ r ∈ l, t r i = true ↔ HeaviestAt rules on wt i r) →
      (l.filter fun r => t r i ∧ c r = k) = (l.filter fun r => on r i).filter fun r => HeaviestAt rules on wt i r ∧ c r = k := by
    intro l t hl
    rw [List.filter_filter]
    refine List.filter_congr fun r hr => ?_
    rw [Bool.eq_iff_iff]
    simp only [decide_eq_true_eq, Bool.and_eq_true, hl r hr]
    exact ⟨fun q => ⟨q, q.1.2.1⟩, fun q => q.1⟩
  unfold votes
  rw [key rules top ht, key rules' top' fun r hr => (ht' r hr).trans (hh r).symm]
  exact ((h.filter _).map _).sum_eq

theorem sameActive_perm (on : Rule → Nat → Bool) (i : Nat) (h : rules.Perm rules') : SameVoters on i rules rules' := h.filter _

end Verif.Active
