import Verif.WeightRatioProps
import Verif.IdleColumnLemmas

/-!
# Equal weights with stacked activations and rules active at no point (C85)
-/

namespace Verif.IdleColumnProps

open Verif Spec Vote WeightRatio WeightRatioProps RuleSetProps ActiveProps VoteProps
open _root_.Verif.RuleSet (voteEnv)

variable {R : RsEnv} {s : RuleSet} {k : Kind} {xs : Option Xs} {a : Rat} {w : Weights}

/-- **C85 (equal weights, stacked activations, idle rules), partial.** With stacked activations under `STACKED_FIT`, rules of either kind
which all have the same positive weight predict what they predict without weights, or raise the same exception, even if some of them,
not all, are active at no point.
Missing: a class called "nan", for which it is false if the first rule is active at no point (`C85_idle_nan_false`); if all rules are active
at no point it is false (`C85_stacked_false`). -/
theorem C85_equal_stacked_idle_partial (ha : 0 < a) {n : Nat} {on : Rule → Nat → Bool} {c : Columns Nat} (hk : s.ruleType = some k)
    (hkind : ∀ m ∈ s.rules, m.kind = k) (hu : R.stackedFit = true) (hc : s.stacked = some c)
    (hx : xs = none → c = stackOf (voteEnv R k) (rulesOf s) n on)
    (hact : ∀ r ∈ rulesOf s, activationOf (voteEnv R k).env xs r = .ok (some (vec n (on r))))
    (hon : ∃ r ∈ rulesOf s, ∃ i < n, on r i = true) (hd : DifferentNames (voteEnv R k) (rulesOf s))
    (hnan : ∀ r ∈ rulesOf s, r.getPrediction (voteEnv R k).env ≠ .ok (some (.text "nan")))
    (hw : SameWeight R.condStr (rulesOf s) a w) :
    RuleSet.predict R xs (some (.series w)) s = RuleSet.predict R xs none s := by
  obtain ⟨r₀, hr₀, i₀, hi₀, h₀⟩ := hon
  have hne' : rulesOf s ≠ [] := List.ne_nil_of_mem hr₀
  have hne : s.rules ≠ [] := by
    intro e
    exact hne' (by simp [rulesOf, e])
  have hst := stackFor_eq hkind hne hd hx hact
  have hheight : height (stackOf (voteEnv R k) (rulesOf s) n on) = n := by
    cases hr : rulesOf s with
    | nil => exact absurd hr hne'
    | cons r rest => simp [stackOf, height, vec]
  have hnames : ((stackOf (voteEnv R k) (rulesOf s) n on).map (·.1)).Nodup := by
    unfold stackOf
    rw [List.map_map]
    exact hd
  have hbin : ∀ q ∈ stackOf (voteEnv R k) (rulesOf s) n on, ∀ x ∈ q.2, x ≤ 1 := by
    intro q hq x hx
    obtain ⟨r, -, rfl⟩ := List.mem_map.1 hq
    obtain ⟨i, -, rfl⟩ := List.mem_map.1 hx
    split <;> omega
  have hrows : ∀ q ∈ stackOf (voteEnv R k) (rulesOf s) n on, q.2.length = height (stackOf (voteEnv R k) (rulesOf s) n on) := by
    intro q hq
    rw [hheight]
    obtain ⟨r, -, rfl⟩ := List.mem_map.1 hq
    simp [vec]
  have hsome : ∃ q ∈ stackOf (voteEnv R k) (rulesOf s) n on, 1 ∈ q.2 :=
    ⟨_, List.mem_map.2 ⟨r₀, hr₀, rfl⟩, List.mem_map.2 ⟨i₀, List.mem_range.2 hi₀, by rw [if_pos h₀]⟩⟩
  have hvals : ∀ preds, labelsOf (voteEnv R k) (rulesOf s) = .ok preds → ∀ x ∈ preds, x.2 ≠ .text "nan" := fun preds h =>
    labelsOf_values (P := fun l => l ≠ .text "nan") (by simp) (fun r hr l hl e => hnan r hr (by rw [hl, e])) h
  have hplain : Plain ((stackOf (voteEnv R k) (rulesOf s) n on).filter busy) :=
    { names := List.Nodup.sublist (List.Sublist.map _ List.filter_sublist) hnames
      binary := fun q hq => hbin q (List.mem_of_mem_filter hq)
      active := fun q hq => busy_iff.1 (List.mem_filter.1 hq).2
      rows := fun q hq => by
        rw [height_busy hrows hsome]
        exact hrows q (List.mem_of_mem_filter hq) }
  have hp : predictStacked (voteEnv R k) (rulesOf s) (stackOf (voteEnv R k) (rulesOf s) n on) (some w) =
      predictStacked (voteEnv R k) (rulesOf s) (stackOf (voteEnv R k) (rulesOf s) n on) none := by
    rw [predictStacked_busy hnames hbin hrows hsome hvals, predictStacked_busy (w := none) hnames hbin hrows hsome hvals]
    exact predictStacked_same ha hplain (by
      intro q hq
      obtain ⟨r, hr, rfl⟩ := List.mem_map.1 (List.mem_of_mem_filter hq)
      exact ⟨r, hr, rfl⟩) hw
  unfold RuleSet.predict
  simp only [Py.bind_run, Py.get_run]
  rw [if_neg (by simpa using hne), hk, hu, hc]
  simp only [Py.bind_run, Py.ofExcept_run]
  unfold rulesOf at hst hp
  rw [hst]
  simp only [RuleSet.weightsOf, weightsFrom, Except.map]
  rw [hp, if_neg (by simpa using hne)]
  rfl

/-- Three rules with stacked activations, of which the first is active at no point -/
def idleFirst (k : Kind) (x y z : Label) : RuleSet :=
  { setWith k [voter 0 [0, 0, 0] x, voter 1 [1, 1, 0] y, voter 2 [0, 1, 1] z] with
    stacked := some [("a", [0, 0, 0]), ("b", [1, 1, 0]), ("c", [0, 1, 1])] }

example : RuleSet.predict (withStackedFit cleanRs true) none (some (.series (someWeights 3 3 3)))
        (idleFirst .regression (.num (.fin 2)) (.num (.fin 5)) (.num (.fin 7))) =
      RuleSet.predict (withStackedFit cleanRs true) none none (idleFirst .regression (.num (.fin 2)) (.num (.fin 5)) (.num (.fin 7))) ∧
    (RuleSet.predict (withStackedFit cleanRs true) none none
      (idleFirst .regression (.num (.fin 2)) (.num (.fin 5)) (.num (.fin 7)))).1 =
      .ok [.label (.num (.fin 5)), .label (.num (.fin 6)), .label (.num (.fin 7))] :=
  ⟨C85_equal_stacked_idle_partial (a := 3) (k := .regression) (n := 3) (on := isOn) (by norm_num) rfl (by decide) rfl rfl
    (fun _ => by decide +kernel) (by
      simp only [rulesOf, idleFirst, setWith, List.map_cons, List.map_nil, List.forall_mem_cons, List.not_mem_nil, false_imp_iff,
        implies_true, and_true]
      decide +kernel)
    ⟨voter 1 [1, 1, 0] (.num (.fin 5)), by simp [rulesOf, idleFirst, setWith], 0, by decide, by decide⟩
    (by unfold DifferentNames; decide +kernel) (by
      simp only [rulesOf, idleFirst, setWith, List.map_cons, List.map_nil, List.forall_mem_cons, List.not_mem_nil, false_imp_iff,
        implies_true, and_true]
      decide +kernel) (by
      simp only [SameWeight, rulesOf, idleFirst, setWith, List.map_cons, List.map_nil, List.forall_mem_cons, List.not_mem_nil,
        false_imp_iff, implies_true, and_true]
      decide +kernel), by decide +kernel⟩

/-- **C85, violation (a class called "nan").** When the first rule is active at no point, the class "nan" is predicted without weights, but
missing with equal weights, which leave out the column of the first rule. -/
theorem C85_idle_nan_false : ∃ (R : RsEnv) (s : RuleSet) (w : Weights), s.ruleType = some .classification ∧
    SameWeight R.condStr (rulesOf s) 3 w ∧
    (RuleSet.predict R none (some (.series w)) s).1 = .ok [.label (.num .nan), .label (.text "dog"), .label (.text "dog")] ∧
    (RuleSet.predict R none none s).1 = .ok [.label (.text "nan"), .label (.num .nan), .label (.text "dog")] :=
  ⟨withStackedFit cleanRs true, idleFirst .classification (.text "cat") (.text "nan") (.text "dog"), someWeights 3 3 3, rfl, (by
      simp only [SameWeight, rulesOf, idleFirst, setWith, List.map_cons, List.map_nil, List.forall_mem_cons, List.not_mem_nil,
        false_imp_iff, implies_true, and_true]
      decide +kernel), by decide +kernel, by decide +kernel⟩

end Verif.IdleColumnProps
