import Verif.FeatureTableLemmas
import Verif.ConditionProps
import Verif.RuleSetDemo
import Verif.RuleProps
import Verif.SharedRulesProps

/-!
# Properties: features numbered by a table (C86)
-/

namespace Verif.FeatureTableProps

open Verif Spec RuleSet RuleSetProps

variable {R : RsEnv} {rules : List Member} {compute stack : Bool} {s t : RuleSet}

/-- **C86 (numbers).** If the class attribute `all_features_indexes` is not empty, each rule of a ruleset which is made has for each of its
features the number of the table, and is otherwise as given; the indexes of the ruleset are the numbers of its features. -/
theorem C86_make (hT : R.allIndexes ≠ []) (h : make R rules compute stack = .ok s) :
    List.Forall₂ (Renumbered R.allIndexes) rules s.rules ∧ List.Forall₂ (TableGives R.allIndexes) s.names s.indexes := by
  refine ⟨?_, indexesOf_gives ((make_ok h).indexes hT)⟩
  unfold make at h
  rw [init_start] at h
  split at h
  · rename_i x t hi
    cases h
    obtain ⟨_, s1, h1, hi⟩ := Py.bind_eq_ok hi
    obtain ⟨_, s2, h2, hi⟩ := Py.bind_eq_ok hi
    obtain ⟨rfl, -⟩ := checkIf_ok hi
    have hr : s1.rules = rules := by
      unfold start at h1
      obtain ⟨_, u1, g1, h1⟩ := Py.bind_eq_ok h1
      obtain ⟨_, u2, g2, h1⟩ := Py.bind_eq_ok h1
      obtain ⟨_, u3, g3, h1⟩ := Py.bind_eq_ok h1
      obtain ⟨l, -, rfl⟩ := collectNames_ok h1
      obtain ⟨-, -, f3, -⟩ := appendAll_ok rfl g1
      have e1 : u1.rules = rules := by rw [f3]; simp [blank]
      have e2 : u2.rules = u1.rules := by
        unfold computeIf at g2
        cases compute with
        | true =>
          obtain ⟨a, -, rfl⟩ := computeSelf_ok g2
          rfl
        | false => cases g2; rfl
      have e3 : u3.rules = u2.rules := by
        rcases stackIf_ok g3 with ⟨-, rfl⟩ | ⟨-, g3⟩
        · rfl
        · obtain ⟨c, -, rfl⟩ := computeStacked_ok g3
          rfl
      show u3.rules = rules
      rw [e3, e2, e1]
    unfold setFeaturesIndexes at h2
    rw [Py.bind_ok (Py.get_run s1), if_pos (List.length_pos_iff.2 hT)] at h2
    obtain ⟨idx, s3, h3, h2⟩ := Py.bind_eq_ok h2
    rw [Py.ofExcept_run] at h3
    obtain ⟨-, e2⟩ := Prod.mk.inj h3
    subst e2
    rw [Py.bind_ok (Py.modify_run _ _)] at h2
    obtain ⟨l, s4, h4, h2⟩ := Py.bind_eq_ok h2
    rw [Py.ofExcept_run] at h4
    obtain ⟨e3, e4⟩ := Prod.mk.inj h4
    subst e4
    rw [Py.modify_run] at h2
    cases h2
    rw [hr] at e3
    exact reindexRules_renumbered e3
  · cases h

/-- **C86 (columns).** A rule with the numbers of the table is active on the rows of an array whose values, in the columns which the
table gives to its features, are finite and within its bounds. -/
theorem C86_columns {T : Thresholds.Dict Int} {m m' : Member} (h : Renumbered T m m') (hc : Reach m.rule.cond) {fs : List Feature}
    (hs : Shows m.rule.cond fs) {xs : Mat} (hr : ∀ f i, TableGives T f i → InRange xs.ncols i) :
    ∃ cols : List Int, List.Forall₂ (fun f i => TableGives T f.name i) fs cols ∧
      Cond.evaluate m'.rule.cond xs =
        .ok (xs.rows.map fun row => flag (InBox (List.zipWith (fun f i => { f with index := i }) fs cols) xs.ncols row)) := by
  obtain ⟨-, na, idx, hn, hg, e⟩ := h
  rw [hs.1] at hn
  cases hn
  have hg' : List.Forall₂ (fun f i => TableGives T f.name i) fs idx := List.forall₂_map_left_iff.1 hg
  have hz : ∀ {fs : List Feature} {idx : List Int}, List.Forall₂ (fun f i => TableGives T f.name i) fs idx →
      let gs := List.zipWith (fun (f : Feature) (i : Int) => { f with index := i }) fs idx
      gs.map (·.name) = fs.map (·.name) ∧ gs.map (·.index) = idx ∧ gs.map (·.lo) = fs.map (·.lo) ∧ gs.map (·.hi) = fs.map (·.hi) ∧
        (∀ g ∈ gs, TableGives T g.name g.index) ∧ ∀ f ∈ fs, ∃ g ∈ gs, g.lo = f.lo ∧ g.hi = f.hi := by
    intro fs idx h
    induction h with
    | nil => simp
    | cons hd _ ih =>
      obtain ⟨i1, i2, i3, i4, i5, i6⟩ := ih
      refine ⟨by simp [i1], by simp [i2], by simp [i3], by simp [i4], ?_, ?_⟩
      · intro g hg
        rcases List.mem_cons.1 hg with rfl | hg
        · exact hd
        · exact i5 g hg
      · intro f hf
        rcases List.mem_cons.1 hf with rfl | hf
        · exact ⟨_, List.mem_cons_self, rfl, rfl⟩
        · obtain ⟨g, hg, e⟩ := i6 f hf
          exact ⟨g, List.mem_cons_of_mem _ hg, e⟩
  obtain ⟨z1, z2, z3, z4, z5, z6⟩ := hz hg'
  refine ⟨idx, hg', ?_⟩
  obtain ⟨gs, hreg⟩ := Cond.reach_regular hc
  have hu := Cond.Shows.unique hs hreg.shows
  subst hu
  refine Cond.evaluate_shows ?_ ?_ fun g hg => hr _ _ (z5 g hg)
  · rw [e]
    refine ⟨?_, ?_, ?_, ?_⟩
    · rw [z1]; exact hs.1
    · rw [z2]
    · rw [z3]; exact hs.2.2.1
    · rw [z4]; exact hs.2.2.2
  · rw [e]
    intro hi
    obtain ⟨f, hf, hlt⟩ := hreg.imp' hi
    obtain ⟨g, hg, e1, e2⟩ := z6 f hf
    exact ⟨g, hg, by rw [e1, e2]; exact hlt⟩

/-- **C86 (DataFrames).** On DataFrames, where features are found by name, the rules are active where they were before. -/
theorem C86_frames {T : Thresholds.Dict Int} {m m' : Member} (h : Renumbered T m m') (xs : Frame) :
    Cond.evaluateFrame m'.rule.cond xs = Cond.evaluateFrame m.rule.cond xs := by
  obtain ⟨-, na, idx, -, -, e⟩ := h
  rw [e]
  rfl

/-- **C86 (unknown features).** A ruleset which can be made without table cannot be made with a table which lacks a feature of one of its
rules: `KeyError`. -/
theorem C86_unknown (h : make (withoutTable R) rules compute stack = .ok t) (hT : R.allIndexes ≠ []) {m : Member} (hm : m ∈ rules)
    {na : List String} (hna : m.rule.cond.names = some na) {f : String} (hf : f ∈ na) (hu : ∀ i, ¬ TableGives R.allIndexes f i) :
    make R rules compute stack = .error .keyError := by
  obtain ⟨-, hr, ⟨l, hl, -⟩, -⟩ := start_ok h
  obtain ⟨s', hs⟩ := set_unknown (t := t) hT (.inr (by rw [hr]; exact reindexRules_unknown (allNames_from hl).1 hm hna hf hu))
  rw [make_start h, Py.bind_err hs]

/-- **C86 (known features).** It can be made with every table which has all features of its rules, and is the same but for the numbers.
A ruleset whose rules have no features at all is only compared without `CHECK_DUPLICATED`. -/
theorem C86_known (h : make (withoutTable R) rules compute stack = .ok t) (hT : R.allIndexes ≠ []) (hk : ∀ m ∈ rules, Knows R.allIndexes m)
    (hd : R.checkDuplicated = false ∨ t.names ≠ []) :
    ∃ s, make R rules compute stack = .ok s ∧ s = { t with rules := s.rules, indexes := s.indexes } := by
  obtain ⟨-, hr, ⟨l, hl, hn⟩, hc⟩ := start_ok h
  obtain ⟨l', hl'⟩ := reindexRules_known (R := R) (allNames_from hl).1 hk
  obtain ⟨idx, hi⟩ := indexesOf_known (R := R) (l := t.names) (by
    intro f hf
    rw [hn] at hf
    have hf := List.mem_dedup.1 ((R.strings_perm l).mem_iff.1 hf)
    obtain ⟨m, hm, na, hna, hf⟩ := (allNames_from hl).2 f hf
    exact hk m hm na hna f hf)
  have hset := set_known (t := t) hT hi (by rw [hr]; exact hl')
  refine ⟨{ t with rules := l', indexes := idx }, ?_, rfl⟩
  rw [make_start h, Py.bind_ok hset]
  unfold checkIf
  rw [Py.bind_ok (Py.get_run _)]
  cases hcd : R.checkDuplicated with
  | false => rfl
  | true =>
    have hne : t.names ≠ [] := by
      rcases hd with hd | hd
      · rw [hcd] at hd; cases hd
      · exact hd
    have hb : decide (t.names.length > 0) = true := decide_eq_true (List.length_pos_iff.2 hne)
    have hck := hc hcd
    rw [hb] at hck
    have hck' : checkDuplicatedRules R true l' = .ok () := by
      unfold checkDuplicatedRules at hck ⊢
      rw [texts_renumbered (reindexRules_renumbered hl')]
      exact hck
    simp only [if_true, hb, Py.ofExcept_run, hck']

/-- The feature "a" is in column 7. -/
def tabled : RsEnv := { someRs with allIndexes := [("b", 0), ("a", 7)] }

example : tabled.allIndexes ≠ [] ∧ ∃ s, make tabled [member 0 [1, 0, 0], member 1 [0, 0, 1]] true true = .ok s ∧
    s.rules.map (fun m => m.rule.cond.indexes) = [some [7], some [7]] ∧ s.names = ["a"] ∧ s.indexes = [7] :=
  ⟨by decide, _, rfl, by decide +kernel⟩

example : make (withoutTable tabled) [member 0 [1, 0, 0], member 1 [0, 0, 1]] true true = .ok twoRules ∧
    (∀ m ∈ [member 0 [1, 0, 0], member 1 [0, 0, 1]], Knows tabled.allIndexes m) ∧ twoRules.names ≠ [] := by
  refine ⟨rfl, ?_, by decide +kernel⟩
  intro m hm na hna f hf
  simp only [List.mem_cons, List.not_mem_nil, or_false] at hm
  rcases hm with rfl | rfl <;> cases hna <;> simp only [List.mem_cons, List.not_mem_nil, or_false] at hf <;> subst hf <;>
    exact ⟨7, by unfold TableGives; decide⟩

/-- A table without "a" -/
example : make { someRs with allIndexes := [("b", 0)] } [member 0 [1, 0, 0], member 1 [0, 0, 1]] true true = .error .keyError :=
  C86_unknown (t := twoRules) (m := member 0 [1, 0, 0]) (na := ["a"]) (f := "a") rfl (by decide) (by simp) rfl (by simp) (by
    intro i hi
    unfold TableGives at hi
    simp at hi)

/-- The rule `a in [0, 9]` reads column 1, or the column "a" -/
example : Renumbered [("a", 1), ("b", 0)] (member 0 [1]) ⟨.regression, { (member 0 [1]).rule with cond := { (member 0 [1]).rule.cond with indexes := some [1] } }⟩ ∧
    Shows (member 0 [1]).rule.cond [⟨"a", 0, .fin 0, .fin 9⟩] ∧ (∀ f i, TableGives [("a", 1), ("b", 0)] f i → InRange 2 i) ∧
    Cond.evaluate { (member 0 [1]).rule.cond with indexes := some [1] } ⟨2, [[.fin 20, .fin 5], [.fin 5, .fin 20]]⟩ = .ok [1, 0] ∧
    Cond.evaluate (member 0 [1]).rule.cond ⟨2, [[.fin 20, .fin 5], [.fin 5, .fin 20]]⟩ = .ok [0, 1] := by
  refine ⟨⟨rfl, ["a"], [1], rfl, .cons (by unfold TableGives; decide) .nil, rfl⟩, ⟨rfl, rfl, rfl, rfl⟩, ?_, by decide +kernel, by decide +kernel⟩
  intro f i h
  unfold TableGives at h
  simp only [List.mem_cons, Prod.mk.injEq, List.not_mem_nil, or_false] at h
  rcases h with ⟨-, rfl⟩ | ⟨-, rfl⟩ <;> exact ⟨by decide, by decide⟩

/-- **C86 is false of rules which are added.** `ruleset += rule` and `ruleset.append(rule)` do not look at the table: the rule added reads
column 0 and the rule before it, on the same feature, column 7; and the ruleset says that it reads both. -/
theorem C86_added_false : ∃ (R : RsEnv) (s s' : RuleSet) (m : Member), R.allIndexes = [("b", 0), ("a", 7)] ∧
    make R [member 0 [1, 0, 0]] true false = .ok s ∧ iaddRule R m s = (.ok (), s') ∧ append R m true s = (.ok (), s') ∧
    s'.rules.map (fun m => (m.rule.cond.names, m.rule.cond.indexes)) = [(some ["a"], some [7]), (some ["a"], some [0])] ∧
    s'.names = ["a"] ∧ s'.indexes = [7, 0] := by
  refine ⟨tabled, (make tabled [member 0 [1, 0, 0]] true false).toOption.getD (blank false), _, member 1 [0, 0, 1], rfl, rfl, rfl, ?_, ?_⟩
  · decide +kernel
  · decide +kernel

/-- **C86: rulesets made before change.** A ruleset was made before the table was set. A slice of it, made after, gives the rule which both
share its number in the table: the first ruleset then has two numbers for the same feature, and predicts otherwise. -/
theorem C86_shared_false : ∃ (R : RsEnv) (w : SharedRules.World) (s s' : RuleSet) (x : Xs), R.allIndexes = [("b", 0), ("a", 1)] ∧
    SharedRules.view w 0 = some s ∧ (SharedRules.make R [1] true false w).1 = .ok () ∧
    SharedRules.view (SharedRules.make R [1] true false w).2 0 = some s' ∧
    s.rules.map (fun m => m.rule.cond.indexes) = [some [0], some [0]] ∧
    s'.rules.map (fun m => m.rule.cond.indexes) = [some [0], some [1]] ∧
    (evaluateSelf R (some x) s.rules).toOption = some (some [0, 1]) ∧ (evaluateSelf R (some x) s'.rules).toOption = some (some [1, 1]) :=
  ⟨{ someRs with allIndexes := [("b", 0), ("a", 1)] }, SharedRulesProps.start, _, _, .arr ⟨2, [[.fin (-5), .fin 5], [.fin 5, .fin 5]]⟩, rfl, rfl, by decide +kernel,
    rfl, by decide +kernel, by decide +kernel, by decide +kernel, by decide +kernel⟩

end Verif.FeatureTableProps
