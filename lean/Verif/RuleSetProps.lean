import Verif.RuleSetDemo

/-!
# Properties of rulesets: what they contain and what they remember
-/

namespace Verif.RuleSetProps

open Verif Vote Spec RuleSet

/-! ## C25 -/

/-- **C25 (activation).** After any sequence of constructions, appends, additions, sorts and assignments of `rules`, with rules
which all have an activation of the same points, the activation of the ruleset is 1 exactly at the points which at least one of
its rules activates, and its coverage is the fraction of these points.
Missing: rules without activation, `compute_activation=False` and `append(update_activation=False)`, for which this is false
(`C25_no_update_false`, `C25_no_compute_false`, `C25_no_activation_false`). -/
theorem C25_union_partial {R : RsEnv} {n : Nat} {b : Bool} {s : RuleSet} (hn : 0 < n) (h : Built R (HasPoints n) b s)
    (hne : s.rules ≠ []) :
    s.act = some (vec n (coveredBy s.rules)) ∧
      s.rulesetCoverage = .num (.fin ((((List.range n).filter (coveredBy s.rules)).length : Rat) / n)) := by
  have hu := (RuleSet.Built.unionOk hn h).union hne
  refine ⟨hu, ?_⟩
  unfold rulesetCoverage
  rw [available_vec hn hu]
  simp only [vec_len]
  congr 4
  unfold Rule.nones vec
  rw [List.filter_map, List.length_map]
  congr 1
  apply List.filter_congr
  intro i _
  cases hc : coveredBy s.rules i <;> simp [hc]

/-- A ruleset without rules has no activation and no coverage. -/
theorem C25_empty {R : RsEnv} {n : Nat} {b : Bool} {s : RuleSet} (hn : 0 < n) (h : Built R (HasPoints n) b s)
    (he : s.rules = []) : s.available = none := (RuleSet.Built.unionOk hn h).empty he

/-- **C25 (stacked activations).** If no two rules have the same condition text, a ruleset with `stack_activation=True` has after
any such sequence one column for each rule, in the order of the rules, with the activation of this rule.
Missing: two rules with the same text share a column (`C25_same_text_false`); adding a ruleset which does not stack
(`C25_mixed_stack_false`). -/
theorem C25_stacked_partial {R : RsEnv} {n : Nat} {s : RuleSet} (hn : 0 < n) (hI : TextIgnoresIndexes R)
    (h : Built R (HasPoints n) true s) (hne : s.rules ≠ []) (hd : DifferentTexts R s.rules) :
    s.stacked = some (columnsOf R s.rules) := by
  rcases (RuleSet.Built.stackOk hn hI h).columns hd with e | ⟨e, -⟩
  · exact e
  · exact absurd e hne

/-- Three rules, the last one added to a ruleset of two -/
example : 0 < 3 ∧ Built someRs (HasPoints 3) true threeRules ∧ threeRules.rules ≠ [] ∧ TextIgnoresIndexes someRs ∧
    DifferentTexts someRs threeRules.rules ∧ threeRules.act = some [1, 1, 1] ∧
    threeRules.stacked = some [("a", [1, 0, 0]), ("b", [0, 0, 1]), ("c", [1, 1, 0])] := by
  refine ⟨by decide, threeRules_built, (fun e => by cases e), fun _ _ => rfl, ?_, rfl, by decide +kernel⟩
  unfold DifferentTexts
  decide +kernel

/-- **C25 is false with `append(rule, update_activation=False)`:** the activation stays the one of the other rules. -/
theorem C25_no_update_false :
    let s := (append someRs (member 2 [1, 1, 0]) false twoRules).2
    (append someRs (member 2 [1, 1, 0]) false twoRules).1 = .ok () ∧ coveredBy s.rules 1 = true ∧ s.act = some [1, 0, 1] := by
  decide +kernel

/-- **C25 is false after `compute_activation=False`:** the next addition computes the activation of the new rule only. -/
theorem C25_no_compute_false :
    let s0 := (init someRs [member 0 [1, 0, 0]] false (blank false)).2
    let s := (iaddRule someRs (member 1 [0, 0, 1]) s0).2
    (init someRs [member 0 [1, 0, 0]] false (blank false)).1 = .ok () ∧
      (iaddRule someRs (member 1 [0, 0, 1]) s0).1 = .ok () ∧ coveredBy s.rules 0 = true ∧ s.act = some [0, 0, 1] := by
  decide +kernel

/-- **C25 is false with a rule which has no activation:** the same two rules give no activation in a constructor and the
activation of the first one in a sequence of additions. -/
theorem C25_no_activation_false :
    let m : Member := ⟨.regression, { (member 1 []).rule with act := none }⟩
    let s1 := init someRs [member 0 [1, 0, 0], m] true (blank false)
    let s2 := iaddRule someRs m (iaddRule someRs (member 0 [1, 0, 0]) (blank false)).2
    s1.1 = .ok () ∧ s2.1 = .ok () ∧ s1.2.act = none ∧ s2.2.act = some [1, 0, 0] := by
  decide +kernel

/-- **C25 is false for two rules with the same condition text:** the second one takes the column of the first one. -/
theorem C25_same_text_false :
    let s := iaddRule someRs (member 0 [0, 1, 1]) twoRules
    s.1 = .ok () ∧ s.2.rules.length = 3 ∧ s.2.stacked = some [("a", [0, 1, 1]), ("b", [0, 0, 1])] := by
  decide +kernel

/-- **C25 is false when a ruleset which does not stack is added to one which does:** its rules have no column. -/
theorem C25_mixed_stack_false :
    let o := (init someRs [member 2 [1, 1, 0]] true (blank false)).2
    let s := iaddSet someRs o twoRules
    s.1 = .ok () ∧ s.2.stack = true ∧ s.2.rules.length = 3 ∧ s.2.stacked = some [("a", [1, 0, 0]), ("b", [0, 0, 1])] := by
  decide +kernel

/-! ## C26 -/

/-- **C26 (`+`).** The rules of `r1 + r2` are rules of `r1` or `r2`; each rule of `r1` or `r2` is equal to one of them; no two of
them require the same of the same features.
Missing: "equal" is equality of hashes, so that different rules can be merged (`C26_collision_false`); with
`all_features_indexes` the conditions of the rules are changed (`C26_indexes_false`). -/
theorem C26_add_partial {R : RsEnv} {s o t : RuleSet} (hA : R.allIndexes = []) (h : addSet R s o = .ok t) :
    (∀ m ∈ t.rules, m ∈ s.rules ∨ m ∈ o.rules) ∧
      (∀ m, m ∈ s.rules ∨ m ∈ o.rules → ∃ m' ∈ t.rules, Cond.eq R.hasher m'.rule.cond m.rule.cond = .ok true) ∧
      t.rules.Pairwise fun m m' => ∀ fs gs, Reach m.rule.cond → Reach m'.rule.cond → Shows m.rule.cond fs →
        Shows m'.rule.cond gs → ¬ SameRequirements fs gs := by
  unfold addSet at h
  simp only [bind, Except.bind] at h
  split at h
  · cases h
  rename_i rules hr
  rw [((make_ok h).noIndexes hA).1]
  obtain ⟨h1, h2, h3⟩ := setOf_ok hr
  refine ⟨fun m hm => List.mem_append.1 (h1 m hm), ?_, ?_⟩
  · intro m hm
    obtain ⟨m', hm', hk⟩ := h2 m (List.mem_append.2 hm)
    exact ⟨m', hm', hk.eq⟩
  · refine h3.imp ?_
    intro m m' hk fs gs hc hd hcs hds hsame
    obtain ⟨fs', hf⟩ := Cond.reach_regular hc
    obtain ⟨gs', hg⟩ := Cond.reach_regular hd
    have := Cond.Shows.unique hcs hf.shows
    subst this
    have := Cond.Shows.unique hds hg.shows
    subst this
    exact hk (sameKey_of_same _ hf.names_nodup hg.names_nodup hcs hds hsame)

/-- The settings of `r1 + r2`: it stacks activations when both do. -/
theorem C26_add_stack {R : RsEnv} {s o t : RuleSet} (h : addSet R s o = .ok t) : t.stack = (s.stack && o.stack) := by
  unfold addSet at h
  simp only [bind, Except.bind] at h
  split at h
  · cases h
  · exact (make_ok h).stack

/-- A rule in both rulesets is kept once. -/
example : ∃ t, addSet someRs twoRules threeRules = .ok t ∧ someRs.allIndexes = [] ∧ t.rules.length = 3 ∧
    t.act = some [1, 1, 1] := ⟨_, rfl, rfl, rfl, rfl⟩

/-- **C26 (`+=`).** `r1 += r2` appends the rules of `r2` in order. -/
theorem C26_iadd {R : RsEnv} {s o s' : RuleSet} (h : iaddSet R o s = (.ok (), s')) : s'.rules = s.rules ++ o.rules := by
  obtain ⟨a, c, -, -, -, -, -, rfl⟩ := iaddSet_ok h
  rfl

/-- **C26 (`+= rule`, `append`).** The rule is added at the end. -/
theorem C26_append {R : RsEnv} {m : Member} {update : Bool} {s s' : RuleSet}
    (h : iaddRule R m s = (.ok (), s') ∨ append R m update s = (.ok (), s')) : s'.rules = s.rules ++ [m] := by
  rcases h with h | h
  · obtain ⟨idx, na, a, c, -, -, -, -, -, -, -, rfl⟩ := iaddRule_ok h
    rfl
  · cases update with
    | false =>
      obtain ⟨idx, na, -, -, -, rfl⟩ := append_noupdate h
      rfl
    | true =>
      obtain ⟨s1, h1, rfl⟩ := append_update h
      obtain ⟨idx, na, a, c, -, -, -, -, -, -, -, rfl⟩ := iaddRule_ok h1
      rfl

/-- **C26 (`+ rule`).** The rules are those of the ruleset and the new one. -/
theorem C26_add_rule {R : RsEnv} {m : Member} {s t : RuleSet} (hA : R.allIndexes = []) (h : addRule R s m = .ok t) :
    t.rules = s.rules ++ [m] := ((make_ok h).noIndexes hA).1

/-- **C26 (types).** Rules of different types are refused. -/
theorem C26_types {R : RsEnv} {m : Member} {s : RuleSet} {k : Kind} (hk : s.ruleType = some k) (hne : k ≠ m.kind) :
    iaddRule R m s = (.error .typeError, s) ∧ append R m true s = (.error .typeError, s) := by
  have h : iaddRule R m s = (.error .typeError, s) := by
    unfold iaddRule pushRule
    apply Py.bind_err
    rw [Py.bind_ok (Py.get_run s)]
    simp only [hk, if_neg hne, Py.throw_run]
  refine ⟨h, ?_⟩
  unfold append
  rw [Py.bind_ok (Py.get_run s)]
  simp only [if_true]
  exact Py.bind_err h

example : ∃ s', iaddSet someRs threeRules twoRules = (.ok (), s') ∧ s'.rules.length = 5 := ⟨_, rfl, rfl⟩

example : ∃ t, addRule someRs twoRules (member 2 [1, 1, 0]) = .ok t ∧ t.rules.length = 3 := ⟨_, rfl, rfl⟩

example : twoRules.ruleType = some .regression ∧ Kind.regression ≠ (⟨.classification, (member 0 [1]).rule⟩ : Member).kind :=
  ⟨rfl, by decide⟩

/-- **C26 is false:** `X_0 in [-1, 9]` and `X_0 in [-2, 9]` have the same hash, and only one of them is in the sum. -/
theorem C26_collision_false :
    let s := (init someRs [member (-1) [1, 0, 0]] true (blank false)).2
    let o := (init someRs [member (-2) [0, 0, 1]] true (blank false)).2
    ∃ t, addSet someRs s o = .ok t ∧ t.rules.map (fun m => m.rule.cond.bmins) = [some [.fin (-1)]] ∧ t.act = some [1, 0, 0] :=
  ⟨_, rfl, rfl, rfl⟩

/-- **C26 is false with `all_features_indexes`:** the conditions of the rules of the sum have other indexes.  (The rules are the
same objects as in the operands, so that the operands are changed.) -/
theorem C26_indexes_false :
    let R := { someRs with allIndexes := [("a", 7)] }
    ∃ t, addSet R twoRules twoRules = .ok t ∧ twoRules.rules.map (fun m => m.rule.cond.indexes) = [some [0], some [0]] ∧
      t.rules.map (fun m => m.rule.cond.indexes) = [some [7], some [7]] := ⟨_, rfl, rfl, rfl⟩

/-! ## C32 -/

/-- **C32 (accepted).** An accepted `append`, with or without update of the activation, leaves `stack_activation` as it was and
the ruleset remembers activations; without update the activation and the stacked activations are unchanged. -/
theorem C32_accepted {R : RsEnv} {m : Member} {update : Bool} {s s' : RuleSet} (h : append R m update s = (.ok (), s')) :
    s'.stack = s.stack ∧ s'.compute = true ∧ (update = false → s'.act = s.act ∧ s'.stacked = s.stacked) := by
  cases update with
  | false =>
    obtain ⟨idx, na, -, -, -, rfl⟩ := append_noupdate h
    exact ⟨rfl, rfl, fun _ => ⟨rfl, rfl⟩⟩
  | true =>
    obtain ⟨s1, h1, rfl⟩ := append_update h
    exact ⟨rfl, rfl, by simp⟩

example : ∃ s', append someRs (member 2 [1, 1, 0]) false twoRules = (.ok (), s') := ⟨_, rfl⟩

/-- **C32 (refused), partial.** A rule of another type is refused, and with `update_activation=True` the ruleset is unchanged.
Missing: with `update_activation=False` the settings are lost (`C32_settings_false`); rules refused for other reasons stay in
the ruleset (`C32_length_false`). -/
theorem C32_refused_partial {R : RsEnv} {m : Member} {s : RuleSet} {k : Kind} (hk : s.ruleType = some k) (hne : k ≠ m.kind) :
    append R m true s = (.error .typeError, s) := (C26_types hk hne).2

/-- Also a refused ruleset leaves everything unchanged. -/
theorem C32_refused_set {R : RsEnv} {o s : RuleSet} {k k' : Kind} (hk : s.ruleType = some k) (ho : o.ruleType = some k')
    (hne : k ≠ k') : iaddSet R o s = (.error .typeError, s) := by
  unfold iaddSet pushSet
  apply Py.bind_err
  rw [Py.bind_ok (Py.get_run s)]
  simp only [hk, ho, if_neg hne, Py.throw_run]

example : twoRules.ruleType = some .regression ∧ (blank true).ruleType = none ∧
    ({ twoRules with ruleType := some .classification } : RuleSet).ruleType = some .classification := ⟨rfl, rfl, rfl⟩

/-- **C32 is false:** after a refused `append(rule, update_activation=False)` the ruleset does not stack activations any more and
does not remember its activation. -/
theorem C32_settings_false :
    let s := append someRs ⟨.classification, (member 2 [1, 1, 0]).rule⟩ false twoRules
    s.1 = .error .typeError ∧ twoRules.stack = true ∧ twoRules.compute = true ∧ s.2.stack = false ∧ s.2.compute = false := by
  decide +kernel

/-- Afterwards rules are added without updating the activation. -/
theorem C32_stale_false :
    let s := (append someRs ⟨.classification, (member 2 [1, 1, 0]).rule⟩ false twoRules).2
    let t := iaddRule someRs (member 2 [1, 1, 0]) s
    t.1 = .ok () ∧ t.2.rules.length = 3 ∧ coveredBy t.2.rules 1 = true ∧ t.2.act = some [1, 0, 1] := by
  decide +kernel

/-- **C32 is false:** a rule with an activation of another length is refused, and stays in the ruleset. -/
theorem C32_length_false :
    let s := append someRs (member 2 [1, 1]) true twoRules
    s.1 = .error .valueError ∧ twoRules.rules.length = 2 ∧ s.2.rules.length = 3 := by
  decide +kernel

/-! ## C35 -/

/-- **C35 (indexes and names).** After any sequence of constructions, appends, additions, sorts and assignments of `rules`, the
feature indexes of a ruleset are those of its rules, each once, and so are the names.
Missing: they are not in increasing order (`C35_order_false`); `all_features_indexes` is empty; after `fit` or `eval` dropped
rules, the features of these rules remain. -/
theorem C35_features_partial {R : RsEnv} {P : Member → Prop} {b : Bool} {s : RuleSet} (hA : R.allIndexes = [])
    (h : Built R P b s) :
    s.indexes.Nodup ∧ (∀ i, i ∈ s.indexes ↔ ∃ m ∈ s.rules, ∃ l, m.rule.cond.indexes = some l ∧ i ∈ l) ∧
      s.names.Nodup ∧ ∀ x, x ∈ s.names ↔ ∃ m ∈ s.rules, ∃ l, m.rule.cond.names = some l ∧ x ∈ l :=
  ⟨(RuleSet.Built.indexes_collect hA h).1, (RuleSet.Built.indexes_collect hA h).2, (RuleSet.Built.names_collect h).1, (RuleSet.Built.names_collect h).2⟩

example : someRs.allIndexes = [] ∧ Built someRs (HasPoints 3) true threeRules ∧ threeRules.names = ["a"] :=
  ⟨rfl, threeRules_built, rfl⟩

/-- **C35 (counter).** `get_features_count` gives each feature name used by a rule once, with the number of rules which use it,
the most used first. -/
theorem C35_counter {s : RuleSet} {l : List (String × Nat)} (h : s.featuresCounts = .ok l)
    (hd : ∀ m ∈ s.rules, ∀ na, m.rule.cond.names = some na → na.Nodup) :
    (l.map (·.1)).Nodup ∧ l.Pairwise (fun a b => b.2 ≤ a.2) ∧
      ∀ x k, (x, k) ∈ l ↔ k = (s.rules.filter fun m => m.rule.cond.names.any fun na => na.contains x).length ∧ 0 < k := by
  unfold featuresCounts at h
  split at h
  · rename_i he
    cases h
    rw [List.length_eq_zero_iff.1 he]
    simp
  · split at h
    · cases ha : RuleSet.allNames s.rules with
      | error e => rw [ha] at h; cases h
      | ok all =>
        rw [ha] at h
        cases h
        obtain ⟨⟨c1, c2⟩, c3⟩ := mostCommon_counts all
        refine ⟨c1, c3, ?_⟩
        have : ∀ x, all.count x = (s.rules.filter fun m => m.rule.cond.names.any fun na => na.contains x).length := by
          intro x
          unfold RuleSet.allNames at ha
          cases hm : s.rules.mapM fun m => Cond.need m.rule.cond.names with
          | error e => rw [hm] at ha; cases ha
          | ok ls =>
            rw [hm] at ha
            cases ha
            have hm' := mapM_eq_ok hm
            clear c1 c2 c3 hm
            generalize s.rules = rules at hm' hd
            induction hm' with
            | nil => simp
            | @cons m na rules ls hx _ ih =>
              have hx : m.rule.cond.names = some na := by
                cases hn : m.rule.cond.names with
                | none => rw [hn] at hx; cases hx
                | some x => rw [hn] at hx; cases hx; rfl
              rw [List.flatten_cons, List.count_append, ih fun m hm => hd m (by simp [hm]),
                (hd m (by simp) na hx).count]
              by_cases hxm : x ∈ na
              · rw [List.filter_cons_of_pos (by simp [hx, hxm]), if_pos hxm, List.length_cons]
                omega
              · rw [List.filter_cons_of_neg (by simp [hx, hxm]), if_neg hxm]
                omega
        intro x k
        rw [c2, this]
    · cases h

example : threeRules.featuresCounts = .ok [("a", 3)] ∧
    ∀ m ∈ threeRules.rules, ∀ na, m.rule.cond.names = some na → na.Nodup := by
  refine ⟨by decide +kernel, ?_⟩
  intro m hm na e
  have : m.rule.cond.names = some ["a"] := by
    rcases List.mem_cons.1 hm with rfl | hm
    · rfl
    rcases List.mem_cons.1 hm with rfl | hm
    · rfl
    rw [List.mem_singleton.1 hm]
    rfl
  rw [this] at e
  cases e
  decide

/-- **C35 (counter) is false without feature names:** the names are read, but the ruleset which has none raises. -/
theorem C35_counter_false (s : RuleSet) (h : s.rules ≠ []) (hn : s.names = []) :
    s.featuresCounts = .error .attributeError := by
  unfold featuresCounts
  rw [if_neg fun e => h (List.length_eq_zero_iff.1 e), hn]
  rfl

example : ({ twoRules with names := [] } : RuleSet).rules ≠ [] ∧ ({ twoRules with names := [] } : RuleSet).names = [] :=
  ⟨(fun e => by cases e), rfl⟩

/-- CPython keeps the integers of a small set in a table of 8 places, at their remainder by 8, and reads it in this order. -/
def byRemainder : RsEnv :=
  { someRs with
    ints := fun l => l.dedup.insertionSort fun a b => a % 8 ≤ b % 8
    ints_perm := fun _ => List.perm_insertionSort _ _ }

/-- **C35 is false (order):** with the rules on columns 1 and 8 the indexes are `[8, 1]`. -/
theorem C35_order_false :
    let m (i : Int) : Member := ⟨.regression, { (member 0 [1, 0, 0]).rule with
      cond := { (member 0 [1, 0, 0]).rule.cond with indexes := some [i] } }⟩
    let s := init byRemainder [m 1, m 8] true (blank false)
    s.1 = .ok () ∧ s.2.indexes = [8, 1] := by
  decide +kernel

end Verif.RuleSetProps
