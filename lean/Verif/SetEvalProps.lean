import Verif.SetEvalLemmas
import Verif.SetProps

/-!
# Properties of rulesets evaluated on features: C55
-/

namespace Verif.SetEvalProps

open Vote Spec RuleSet RuleSetProps

/-! ## Example data -/

/-- Five points with two columns; the second one is not used by the rules. -/
def points : Xs := .arr ⟨2, [[.fin (1 / 2), .nan], [.fin 1, .fin 0], [.nan, .fin 1], [.fin 9, .fin 1], [.fin 10, .fin 1]]⟩

theorem member_talks (lo : Rat) (hlo : lo ∈ [(0 : Rat), 1, 2]) (v : List Nat) : TalksAbout (member lo v).rule.cond points := by
  refine ⟨member_reach lo hlo v _, [⟨"a", 0, .fin lo, .fin 9⟩], ⟨rfl, rfl, rfl, rfl⟩, ?_⟩
  intro f hf
  rw [List.mem_singleton.1 hf]
  exact (⟨by decide, by decide⟩ : (-2 : Int) ≤ 0 ∧ (0 : Int) < 2)

theorem two_talk : ∀ m ∈ twoRules.rules, TalksAbout m.rule.cond points := by
  intro m hm
  rcases List.mem_cons.1 hm with rfl | hm
  · exact member_talks 0 (by decide) _
  · rw [List.mem_singleton.1 hm]
    exact member_talks 1 (by decide) _

/-- A machine on which `multi_logical_or` of several vectors lacks memory -/
def smallRs : RsEnv := { someRs with multi := fun l => if l.length = 1 then .ok () else .error .memoryError }

/-! ## C55 -/

/-- **C55 (evaluate).** `evaluate(xs)` gives 1 exactly at the points which are in the hyper-rectangle of at least one rule, one entry
for each point, in their order: for arrays and DataFrames, NaN and infinite values, any number of rules. -/
theorem C55_evaluate {R : RsEnv} {s : RuleSet} {xs : Xs} {v : List Nat} (hc : ∀ m ∈ s.rules, TalksAbout m.rule.cond xs)
    (h : evaluate R s xs = .ok v) : v = (pointsOf xs).map fun p => flag (∃ m ∈ s.rules, Selects m.rule.cond xs p) :=
  evaluate_ok hc h

example : (∀ m ∈ twoRules.rules, TalksAbout m.rule.cond points) ∧ evaluate someRs twoRules points = .ok [1, 1, 0, 1, 0] :=
  ⟨two_talk, by decide +kernel⟩

/-- **C55 (no exception).** When there is memory, only the empty ruleset raises. -/
theorem C55_raises {R : RsEnv} {s : RuleSet} {xs : Xs} (hm : ∀ l, R.multi l = .ok ()) (hs : ∀ v, R.env.store v = .ok ())
    (hc : ∀ m ∈ s.rules, TalksAbout m.rule.cond xs) :
    (s.rules ≠ [] → ∃ v, evaluate R s xs = .ok v) ∧ (s.rules = [] → evaluate R s xs = .error .valueError) := by
  refine ⟨fun hne => evaluate_total hm hs hne hc, ?_⟩
  intro e
  unfold evaluate
  rw [if_pos (by rw [e]; rfl)]

example : (∀ l, someRs.multi l = .ok ()) ∧ (∀ v, someRs.env.store v = .ok ()) ∧
    (∀ m ∈ twoRules.rules, TalksAbout m.rule.cond points) ∧ twoRules.rules ≠ [] :=
  ⟨fun _ => rfl, fun _ => rfl, two_talk, fun e => by cases e⟩

/-- **C55 (order and repetition).** Two rulesets with the same rules, in any order and any number of times, give the same. -/
theorem C55_order {R R' : RsEnv} {s t : RuleSet} {xs : Xs} {v w : List Nat} (hc : ∀ m ∈ s.rules, TalksAbout m.rule.cond xs)
    (hst : ∀ m, m ∈ s.rules ↔ m ∈ t.rules) (hv : evaluate R s xs = .ok v) (hw : evaluate R' t xs = .ok w) : v = w := by
  rw [C55_evaluate hc hv, C55_evaluate (fun m hm => hc m ((hst m).2 hm)) hw]
  simp only [hst]

/-- Two rules, and the same in the other order with one of them twice -/
example : let t := { twoRules with rules := [member 1 [0, 0, 1], member 0 [1, 0, 0], member 1 [0, 0, 1]] }
    (∀ m, m ∈ twoRules.rules ↔ m ∈ t.rules) ∧ evaluate someRs t points = .ok [1, 1, 0, 1, 0] := by
  refine ⟨?_, by decide +kernel⟩
  intro m
  rw [twoRules_rules]
  simp only [List.mem_cons, List.not_mem_nil, or_false]
  tauto

/-- **C55 (more rules).** More rules, more points: a point which a ruleset selects is selected by every ruleset which contains its
rules. -/
theorem C55_more {R R' : RsEnv} {s t : RuleSet} {xs : Xs} {v w : List Nat} (hc : ∀ m ∈ t.rules, TalksAbout m.rule.cond xs)
    (hst : ∀ m ∈ s.rules, m ∈ t.rules) (hv : evaluate R s xs = .ok v) (hw : evaluate R' t xs = .ok w) :
    v.length = w.length ∧ ∀ i : Nat, v[i]? = some 1 → w[i]? = some 1 := by
  rw [C55_evaluate (fun m hm => hc m (hst m hm)) hv, C55_evaluate hc hw]
  refine ⟨by simp, ?_⟩
  intro i
  simp only [List.getElem?_map, Option.map_eq_some_iff]
  rintro ⟨p, hp, e⟩
  refine ⟨p, hp, ?_⟩
  unfold flag at e ⊢
  split at e
  · rename_i hx
    obtain ⟨m, hm, hx⟩ := hx
    rw [if_pos ⟨m, hst m hm, hx⟩]
  · cases e

example : (∀ m ∈ [member 1 [0, 0, 1]], m ∈ twoRules.rules) ∧
    evaluate someRs { twoRules with rules := [member 1 [0, 0, 1]] } points = .ok [0, 1, 0, 1, 0] ∧
    evaluate someRs twoRules points = .ok [1, 1, 0, 1, 0] := by
  refine ⟨?_, by decide +kernel, by decide +kernel⟩
  intro m hm
  rw [twoRules_rules, List.mem_singleton.1 hm]
  simp

/-- **C55 (evaluate_self_activation).** `evaluate_self_activation(xs)` gives the same points. -/
theorem C55_self {R : RsEnv} {s : RuleSet} {xs : Xs} {a : Option (List Nat)} (hne : s.rules ≠ [])
    (hc : ∀ m ∈ s.rules, TalksAbout m.rule.cond xs) (h : evaluateSelf R (some xs) s.rules = .ok a) :
    a = some ((pointsOf xs).map fun p => flag (∃ m ∈ s.rules, Selects m.rule.cond xs p)) :=
  evaluateSelf_given hne hc h

example : twoRules.rules ≠ [] ∧ (∀ m ∈ twoRules.rules, TalksAbout m.rule.cond points) ∧
    evaluateSelf someRs (some points) twoRules.rules = .ok (some [1, 1, 0, 1, 0]) ∧
    evaluateSelf smallRs (some points) twoRules.rules = .ok (some [1, 1, 0, 1, 0]) :=
  ⟨(fun e => by cases e), two_talk, by decide +kernel, by decide +kernel⟩

/-- **C55 (calc_activation).** After `calc_activation(xs)` the activation of the ruleset is the one `evaluate` gives, that of each
rule marks the points in its own hyper-rectangle, and the conditions are the same, in the same order.  With `stack_activation` and
different condition texts, the stacked activations have these vectors, in this order. -/
theorem C55_calc {R : RsEnv} {s s' : RuleSet} {xs : Xs} (hx : xs.length ≠ 0) (hc : ∀ m ∈ s.rules, TalksAbout m.rule.cond xs)
    (h : calcActivation R xs s = (.ok (), s')) :
    s'.act = some ((pointsOf xs).map fun p => flag (∃ m ∈ s.rules, Selects m.rule.cond xs p)) ∧
      List.Forall₂ (fun m m' => m'.kind = m.kind ∧ m'.rule.cond = m.rule.cond ∧
        m'.rule.act = some ((pointsOf xs).map fun p => flag (Selects m.rule.cond xs p))) s.rules s'.rules ∧
      (s.stack = true → DifferentTexts R s.rules → s'.stacked = some (s.rules.map fun m =>
        (R.condStr m.rule.cond, (pointsOf xs).map fun p => flag (Selects m.rule.cond xs p)))) := by
  obtain ⟨hne, hl, ha, hst, -⟩ := calcActivation_done hx h
  have hf := each_activated hx hc hl
  have hp := activated_points hf
  have hne' : s'.rules ≠ [] := by
    intro e
    rw [e] at hf
    exact hne (List.forall₂_nil_right_iff.1 hf)
  refine ⟨?_, hf, ?_⟩
  · rw [evaluateSelf_stored hp hne' ha, ← any_flags (pointsOf xs) s.rules fun m p => Selects m.rule.cond xs p,
      ← activated_acts hf]
    congr 1
    apply vec_congr
    intro i _
    exact (coveredBy_stored i).symm
  · intro e hd
    have hd' : DifferentTexts R s'.rules := by
      unfold DifferentTexts
      rw [activated_texts hf]
      exact hd
    rw [evaluateStacked_stored hp hd' (hst e), activated_columns hf]

example : points.length ≠ 0 ∧ (∀ m ∈ twoRules.rules, TalksAbout m.rule.cond points) ∧ twoRules.stack = true ∧
    DifferentTexts someRs twoRules.rules ∧ (calcActivation someRs points twoRules).1 = .ok () ∧
    (calcActivation someRs points twoRules).2.act = some [1, 1, 0, 1, 0] ∧
    (calcActivation someRs points twoRules).2.stacked = some [("a", [1, 1, 0, 1, 0]), ("b", [0, 1, 0, 1, 0])] := by
  refine ⟨by decide, two_talk, rfl, ?_, by decide +kernel, by decide +kernel, by decide +kernel⟩
  unfold DifferentTexts
  decide +kernel

/-- **C55 is false when memory lacks:** `evaluate_self_activation(xs)` makes the union by pairs, `evaluate(xs)` raises. -/
theorem C55_memory_false :
    evaluate smallRs twoRules points = .error .memoryError ∧
      evaluateSelf smallRs (some points) twoRules.rules = .ok (some [1, 1, 0, 1, 0]) := by
  decide +kernel

/-- **C55 is false for the empty ruleset:** `evaluate_self_activation(xs)` gives a vector of no point, `evaluate(xs)` and
`calc_activation(xs)` raise. -/
theorem C55_empty_false (R : RsEnv) (s : RuleSet) (xs : Xs) (h : s.rules = []) :
    evaluate R s xs = .error .valueError ∧ calcActivation R xs s = (.error .valueError, s) ∧
      (R.env.store [] = .ok () → evaluateSelf R (some xs) s.rules = .ok (some [])) := by
  refine ⟨?_, ?_, ?_⟩
  · unfold evaluate
    rw [if_pos (by rw [h]; rfl)]
  · unfold calcActivation
    rw [Py.bind_ok (Py.get_run _), if_pos (by rw [h]; rfl)]
    rfl
  · intro hs
    unfold evaluateSelf
    rw [if_pos (by rw [h]; rfl)]
    simp only [hs, bind, Except.bind]

example : (RuleSet.blank true).rules = [] ∧ someRs.env.store [] = .ok () := ⟨rfl, rfl⟩

/-- **C55 is false of no points:** `evaluate` gives a vector without entries, `calc_activation` leaves the activation of the points
before. -/
theorem C55_no_points_false :
    evaluate someRs twoRules (.arr ⟨2, []⟩) = .ok [] ∧ calcActivation someRs (.arr ⟨2, []⟩) twoRules = (.ok (), twoRules) ∧
      twoRules.act = some [1, 0, 1] := by
  decide +kernel

end Verif.SetEvalProps
