import Verif.TreeLemmas
import Verif.RuleSetDemo

/-!
# Properties of the rules of a decision tree
-/

namespace Verif.TreeProps

open Spec Tree
open RuleSetProps (someRs)

/-! ## Examples -/

/-- A tree on two features:
```
a ≤ 5 ── a ≤ 3 ── 10
   │        └── b ≤ 0 ── 20
   │               └── 30
   └── 40
``` -/
def someTree : DTree :=
  .node 0 5 [25] (.node 0 3 [20] (.leaf [10]) (.node 1 0 [22] (.leaf [20]) (.leaf [30]))) (.leaf [40])

/-- The arrays in which sklearn keeps it, features between 0 and 10, and between -10 and 10 -/
def someInput (getLeaf : Bool) : Input where
  feature := [0, 0, -2, 1, -2, -2, -2]
  threshold := [.fin 5, .fin 3, .fin (-2), .fin 0, .fin (-2), .fin (-2), .fin (-2)]
  left := [1, 2, -1, 4, -1, -1, -1]
  right := [6, 3, -1, 5, -1, -1, -1]
  value := [[25], [20], [10], [22], [20], [30], [40]]
  nFeatures := none
  kind := .regression
  xmins := [.fin 0, .fin (-10)]
  xmaxs := [.fin 10, .fin 10]
  names := some ["a", "b"]
  classes := none
  getLeaf
  stack := false
  sortBy := "index"
  limit := 1000

theorem some_good (g : Bool) : GoodInput (someInput g) 2 someTree where
  stores := .node (f := 0) (j := 1) (k := 6) rfl rfl rfl rfl rfl
    (.node (f := 0) (j := 2) (k := 3) rfl rfl rfl rfl rfl (.leaf rfl rfl)
      (.node (f := 1) (j := 4) (k := 5) rfl rfl rfl rfl rfl (.leaf rfl rfl) (.leaf rfl rfl))) (.leaf rfl rfl)
  fits := by simp [someTree, TreeFits, ValueFits, someInput]
  deep := show 3 < 1000 by decide
  sortBy := .inl rfl
  mins := rfl
  maxs := rfl
  minsNum := by simp [someInput]
  maxsNum := by simp [someInput]
  names := .inl ⟨_, rfl, rfl, by decide⟩

theorem some_root (g : Bool) : (someInput g).getLeaf = true → ∃ f a v l r, someTree = .node f a v l r :=
  fun _ => ⟨_, _, _, _, _, rfl⟩

/-- A classifier: one split, classes given by name -/
def classTree : DTree := .node 0 1 [2, 3] (.leaf [2, 0]) (.leaf [0, 3])

def classInput : Input where
  feature := [0, -2, -2]
  threshold := [.fin 1, .fin (-2), .fin (-2)]
  left := [1, -1, -1]
  right := [2, -1, -1]
  value := [[2, 3], [2, 0], [0, 3]]
  nFeatures := some 1
  kind := .classification
  xmins := [.ninf]
  xmaxs := [.inf]
  names := none
  classes := some [.text "no", .text "yes"]
  getLeaf := true
  stack := true
  sortBy := "name"
  limit := 1000

theorem class_good : GoodInput classInput 1 classTree where
  stores := .node (f := 0) (j := 1) (k := 2) rfl rfl rfl rfl rfl (.leaf rfl rfl) (.leaf rfl rfl)
  fits := by simp [classTree, TreeFits, ValueFits, classInput]
  deep := show 1 < 1000 by decide
  sortBy := .inr rfl
  mins := rfl
  maxs := rfl
  minsNum := by simp [classInput]
  maxsNum := by simp [classInput]
  names := .inr ⟨rfl, rfl⟩

/-! ## C30 -/

/-- **C30 (rules).** The extraction gives one rule for each leaf with `get_leaf`, and otherwise two for each internal node, in the
order in which the tree is written from left to right, parents first.  Each rule talks about the features compared on the way, by their names, and
predicts the value of the leaf; without `get_leaf`, of the node above (`C30_value_false`). -/
theorem C30_rules {R : RsEnv} {I : Input} {n : Nat} {t : DTree} (h : GoodInput I n t)
    (hroot : I.getLeaf = true → ∃ f a v l r, t = .node f a v l r) :
    ∃ s, extract R I = .ok s ∧ s.rules.length = (if I.getLeaf then t.leafCount else 2 * t.innerCount) ∧ s.act = none ∧
      List.Forall₂ (fun e m => m.kind = I.kind ∧ m.rule.prediction = predictionOf I e.2 ∧ m.rule.act = none ∧
        ∃ fs, Shows m.rule.cond fs ∧ (∀ k : Nat, (∃ f ∈ fs, f.index = k) ↔ ∃ u ∈ e.1, u.feature = k) ∧
          ∀ f ∈ fs, ∃ k : Nat, f.index = k ∧ NameOf I k f.name) (wanted I t) s.rules := by
  obtain ⟨s, names, h1, h2, hnm, h3, h4⟩ := extract_ok (R := R) h hroot
  refine ⟨s, h1, ?_, h3.act, ?_⟩
  · rw [← h4.length_eq]
    unfold wanted
    split
    · exact leaves_length t
    · exact turns_length t
  · refine h4.imp fun e m he => ?_
    obtain ⟨fs, hI⟩ := he.inv
    refine ⟨he.kind, he.prediction, he.act, fs, hI.shows, hI.feats, fun f hf => ?_⟩
    obtain ⟨k, hk, hk'⟩ := hI.named f hf
    exact ⟨k, hk, hnm k _ hk'⟩

example : GoodInput (someInput true) 2 someTree ∧ GoodInput (someInput false) 2 someTree ∧ GoodInput classInput 1 classTree ∧
    (extract someRs (someInput true)).map (fun s => s.rules.map fun m => (m.rule.cond.bmins, m.rule.cond.bmaxs, m.rule.prediction)) =
      .ok [(some [.fin 0], some [.fin 3], .label (.num (.fin 10))),
        (some [.fin 3, .fin (-10)], some [.fin 10, .fin 0], .label (.num (.fin 20))),
        (some [.fin 3, .fin 0], some [.fin 10, .fin 10], .label (.num (.fin 30))),
        (some [.fin 5], some [.fin 10], .label (.num (.fin 40)))] ∧
    (extract someRs (someInput false)).map (fun s => s.rules.length) = .ok 6 ∧
    (extract someRs classInput).map (fun s => s.rules.map fun m => (m.rule.cond.names, m.rule.prediction)) =
      .ok [(some ["X_0"], .probs [(.text "no", 2), (.text "yes", 0)]), (some ["X_0"], .probs [(.text "no", 0), (.text "yes", 3)])] :=
  ⟨some_good _, some_good _, class_good, by decide +kernel, by decide +kernel, by decide +kernel⟩

/-- **C30 (covers).** A sample between `xmins` and `xmaxs` which satisfies the comparisons on the way to a node activates the rule of
this node. -/
theorem C30_covers {R : RsEnv} {I : Input} {n : Nat} {t : DTree} {s : RuleSet} {xs : Mat} (h : GoodInput I n t)
    (hroot : I.getLeaf = true → ∃ f a v l r, t = .node f a v l r) (hs : extract R I = .ok s) (hc : n ≤ xs.ncols) :
    List.Forall₂ (fun e m => ∃ v, Cond.evaluate m.rule.cond xs = .ok v ∧ v.length = xs.rows.length ∧
      ∀ (k : Nat) row, xs.rows[k]? = some row → InsideBounds I.xmins I.xmaxs (rowOf xs.ncols row) →
        (∀ u ∈ e.1, u.Admits (rowOf xs.ncols row)) → v[k]? = some 1) (wanted I t) s.rules := by
  obtain ⟨s', names, h1, h2, -, h3, h4⟩ := extract_ok (R := R) h hroot
  rw [hs] at h1
  cases h1
  refine h4.imp fun e m he => ?_
  obtain ⟨P, hP, hcov, -, -⟩ := he.evaluates (xs := xs) (by omega)
  refine ⟨_, hP, by simp, ?_⟩
  intro k row hk hin hadm
  rw [List.getElem?_map, hk]
  simp only [Option.map_some, flag]
  rw [if_pos (hcov row hin hadm)]

/-- **C30 (only), partial.** A sample which activates the rule of a node satisfies, up to equality with the threshold, every
comparison on the way to this node, except those which asked for a feature to be at most a threshold when the same feature was later
asked to be greater than another one.  Missing: these comparisons, of which it is false (`C30_return_false`). -/
theorem C30_only_partial {R : RsEnv} {I : Input} {n : Nat} {t : DTree} {s : RuleSet} {xs : Mat} (h : GoodInput I n t)
    (hroot : I.getLeaf = true → ∃ f a v l r, t = .node f a v l r) (hs : extract R I = .ok s) (hc : n ≤ xs.ncols) :
    List.Forall₂ (fun e m => ∃ v, Cond.evaluate m.rule.cond xs = .ok v ∧ v.length = xs.rows.length ∧
      ∀ (k : Nat) row, xs.rows[k]? = some row → v[k]? = some 1 →
        ∀ p1 u p2, e.1 = p1 ++ u :: p2 → u.Kept p2 → u.Admits (rowOf xs.ncols row)) (wanted I t) s.rules := by
  obtain ⟨s', names, h1, h2, -, h3, h4⟩ := extract_ok (R := R) h hroot
  rw [hs] at h1
  cases h1
  refine h4.imp fun e m he => ?_
  obtain ⟨P, hP, -, honly, -⟩ := he.evaluates (xs := xs) (by omega)
  refine ⟨_, hP, by simp, ?_⟩
  intro k row hk hv
  rw [List.getElem?_map, hk] at hv
  simp only [Option.map_some, flag] at hv
  by_cases hp : P row
  · exact honly row hp
  · rw [if_neg hp] at hv
    cases hv

/-- **C30 (within).** When the thresholds on the way to a node are between `xmins` and `xmaxs`, a sample which activates the rule of this
node has each of the features of the rule between its minimum and its maximum. -/
theorem C30_within {R : RsEnv} {I : Input} {n : Nat} {t : DTree} {s : RuleSet} {xs : Mat} (h : GoodInput I n t)
    (hroot : I.getLeaf = true → ∃ f a v l r, t = .node f a v l r) (hs : extract R I = .ok s) (hc : n ≤ xs.ncols) :
    List.Forall₂ (fun e m => ∃ v, Cond.evaluate m.rule.cond xs = .ok v ∧ v.length = xs.rows.length ∧
      ∀ (k : Nat) row, xs.rows[k]? = some row → v[k]? = some 1 → (∀ u ∈ e.1, u.Inside I.xmins I.xmaxs) →
        ∀ u ∈ e.1, ∀ lo hi, I.xmins[u.feature]? = some lo → I.xmaxs[u.feature]? = some hi →
          Within lo hi (rowOf xs.ncols row u.feature)) (wanted I t) s.rules := by
  obtain ⟨s', names, h1, h2, -, h3, h4⟩ := extract_ok (R := R) h hroot
  rw [hs] at h1
  cases h1
  refine h4.imp fun e m he => ?_
  obtain ⟨P, hP, -, -, hwith⟩ := he.evaluates (xs := xs) (by omega)
  refine ⟨_, hP, by simp, ?_⟩
  intro k row hk hv
  rw [List.getElem?_map, hk] at hv
  simp only [Option.map_some, flag] at hv
  by_cases hp : P row
  · exact hwith row hp
  · rw [if_neg hp] at hv
    cases hv

example : ∀ e ∈ someTree.leaves, ∀ u ∈ e.1, u.Inside (someInput true).xmins (someInput true).xmaxs := by
  have h : ∀ e ∈ someTree.leaves, ∀ u ∈ e.1, (u.feature = 0 ∧ 0 ≤ u.threshold ∧ u.threshold ≤ 10) ∨
      (u.feature = 1 ∧ -10 ≤ u.threshold ∧ u.threshold ≤ 10) := by decide +kernel
  intro e he u hu lo hi h1 h2
  rcases h e he u hu with ⟨e0, h3, h4⟩ | ⟨e0, h3, h4⟩
  · rw [e0] at h1 h2
    cases h1; cases h2
    exact ⟨h3, h4⟩
  · rw [e0] at h1 h2
    cases h1; cases h2
    exact ⟨h3, h4⟩

/-- The rules of `someTree` on samples which fall in the four leaves, and on one out of bounds: the third one activates two rules
(`C30_return_false`). -/
example : ∃ s, extract someRs (someInput true) = .ok s ∧ 2 ≤ (⟨2, []⟩ : Mat).ncols ∧
    (s.rules.mapM fun m => Cond.evaluate m.rule.cond
      ⟨2, [[.fin 1, .fin 7], [.fin 4, .fin (-1)], [.fin 7, .fin 2], [.fin 4, .fin 2], [.fin (-3), .nan]]⟩) =
    .ok [[1, 0, 0, 0, 0], [0, 1, 0, 0, 0], [0, 0, 1, 1, 0], [0, 0, 1, 0, 0]] :=
  ⟨_, rfl, by decide, by decide +kernel⟩

/-- **C30 (prediction).** With `get_leaf`, a sample between `xmins` and `xmaxs` activates the rule of the leaf in which it falls, which
predicts the value of this leaf. -/
theorem C30_prediction {R : RsEnv} {I : Input} {n : Nat} {t : DTree} {s : RuleSet} {xs : Mat} {x : Nat → Rat} {k : Nat} {row : List Num}
    (h : GoodInput I n t) (hleaf : I.getLeaf = true) (hroot : ∃ f a v l r, t = .node f a v l r) (hs : extract R I = .ok s)
    (hc : n ≤ xs.ncols) (hk : xs.rows[k]? = some row) (hx : ∀ f < n, rowOf xs.ncols row f = .fin (x f))
    (hin : InsideBounds I.xmins I.xmaxs (rowOf xs.ncols row)) :
    ∃ (j : Nat) (m : Member) (v : List Nat), t.leaves[j]? = some (t.falls x) ∧ s.rules[j]? = some m ∧
      m.rule.prediction = predictionOf I (t.falls x).2 ∧ Cond.evaluate m.rule.cond xs = .ok v ∧ v[k]? = some 1 := by
  obtain ⟨j, hj, ej⟩ := List.getElem_of_mem (falls_mem x t)
  have hw : wanted I t = t.leaves := by
    unfold wanted
    rw [if_pos hleaf]
  have h1 := C30_covers (xs := xs) h (fun _ => hroot) hs hc
  obtain ⟨s', h2, -, -, h3⟩ := C30_rules (R := R) h fun _ => hroot
  rw [hs] at h2
  cases h2
  rw [hw] at h1 h3
  have hj' : j < s.rules.length := by rw [← h1.length_eq]; exact hj
  obtain ⟨v, e1, -, e2⟩ := h1.get (i := j) hj hj'
  obtain ⟨-, e3, -, -⟩ := h3.get (i := j) hj hj'
  refine ⟨j, s.rules[j], v, ?_, ?_, ?_, e1, ?_⟩
  · rw [List.getElem?_eq_getElem hj, ej]
  · rw [List.getElem?_eq_getElem hj']
  · rw [← ej]
    exact e3
  · refine e2 k row hk hin ?_
    have : (t.leaves.get ⟨j, hj⟩) = t.falls x := ej
    rw [this]
    exact falls_admits x t fun u hu => hx _ (leaves_features t h.fits _ (falls_mem x t) u hu)

example : someTree.falls (fun f => if f = 0 then 4 else -1) = ([⟨0, 5, false⟩, ⟨0, 3, true⟩, ⟨1, 0, false⟩], [20]) ∧
    InsideBounds (someInput true).xmins (someInput true).xmaxs (rowOf 2 [.fin 4, .fin (-1)]) ∧
    ∀ f < 2, rowOf 2 [.fin 4, .fin (-1)] f = .fin (if f = 0 then 4 else -1) := by
  refine ⟨by decide +kernel, ?_, ?_⟩
  · intro f lo hi h1 h2
    match f with
    | 0 => cases h1; cases h2; exact ⟨4, rfl, by simp [AtLeast], by simp [AtMost]; norm_num⟩
    | 1 => cases h1; cases h2; exact ⟨-1, rfl, by simp [AtLeast], by simp [AtMost]; norm_num⟩
    | f + 2 => simp [someInput] at h1
  · intro f hf
    match f with
    | 0 => rfl
    | 1 => rfl

/-- **C30 (one rule), partial.** With `get_leaf`, when no feature is asked to be at most a threshold and below this to be greater than
another one, a sample none of whose features is equal to a threshold activates no other rule than the one of its leaf.
Missing: other trees, for which it is false (`C30_return_false`), and samples on thresholds (`C30_threshold_false`). -/
theorem C30_unique_partial {R : RsEnv} {I : Input} {n : Nat} {t : DTree} {s : RuleSet} {xs : Mat} {x : Nat → Rat} {k j : Nat}
    {row : List Num} {m : Member} {v : List Nat} (h : GoodInput I n t) (hleaf : I.getLeaf = true)
    (hroot : ∃ f a v l r, t = .node f a v l r) (hs : extract R I = .ok s) (hc : n ≤ xs.ncols) (hk : xs.rows[k]? = some row)
    (hx : ∀ f < n, rowOf xs.ncols row f = .fin (x f)) (hkept : ∀ e ∈ t.leaves, ∀ p1 u p2, e.1 = p1 ++ u :: p2 → u.Kept p2)
    (hthr : ∀ e ∈ t.leaves, ∀ u ∈ e.1, x u.feature ≠ u.threshold) (hj : s.rules[j]? = some m)
    (hv : Cond.evaluate m.rule.cond xs = .ok v) (ha : v[k]? = some 1) : t.leaves[j]? = some (t.falls x) := by
  have hw : wanted I t = t.leaves := by
    unfold wanted
    rw [if_pos hleaf]
  have h1 := C30_only_partial (xs := xs) h (fun _ => hroot) hs hc
  rw [hw] at h1
  obtain ⟨hj', ej⟩ := List.getElem?_eq_some_iff.1 hj
  have hjl : j < t.leaves.length := by rw [h1.length_eq]; exact hj'
  obtain ⟨v', e1, -, e2⟩ := h1.get (i := j) hjl hj'
  have : s.rules.get ⟨j, hj'⟩ = m := ej
  rw [this, hv] at e1
  cases e1
  have hmem : t.leaves[j] ∈ t.leaves := List.getElem_mem hjl
  rw [List.getElem?_eq_getElem hjl]
  congr 1
  refine falls_unique x (y := rowOf xs.ncols row) t _ hmem ?_ ?_
  · intro u hu
    exact ⟨hx _ (leaves_features t h.fits _ hmem u hu), hthr _ hmem u hu⟩
  · intro u hu
    obtain ⟨p1, p2, e⟩ := List.append_of_mem hu
    exact e2 k row hk ha p1 u p2 e (hkept _ hmem p1 u p2 e)

/-- `classTree` meets the hypotheses: each way has one turn only. -/
example : ∀ e ∈ classTree.leaves, ∀ p1 u p2, e.1 = p1 ++ u :: p2 → u.Kept p2 := by
  intro e he p1 u p2 hp
  have hl : e.1.length = 1 := by
    simp only [classTree, DTree.leaves, List.map_cons, List.map_nil, List.cons_append, List.nil_append, List.mem_cons,
      List.not_mem_nil, or_false] at he
    rcases he with rfl | rfl <;> rfl
  rw [hp, List.length_append, List.length_cons] at hl
  have : p2 = [] := List.length_eq_zero_iff.1 (by omega)
  subst this
  exact .inr (by simp)

/-- **C30 (only) is false** when the same feature is split to the left and then to the right: the rule of the leaf of `someTree` where
`3 < a ≤ 5` and `b ≤ 0` has the bounds 3 and 10 for `a`; a sample with `a = 7` activates it. -/
theorem C30_return_false :
    ∃ s m, extract someRs (someInput true) = .ok s ∧ s.rules[1]? = some m ∧
      someTree.leaves[1]? = some ([⟨0, 5, false⟩, ⟨0, 3, true⟩, ⟨1, 0, false⟩], [20]) ∧
      Cond.evaluate m.rule.cond ⟨2, [[.fin 7, .fin (-1)]]⟩ = .ok [1] ∧
      ¬ Turn.Admits ⟨0, 5, false⟩ (rowOf 2 [.fin 7, .fin (-1)]) ∧
      someTree.falls (fun f => if f = 0 then 7 else -1) = ([⟨0, 5, true⟩], [40]) := by
  refine ⟨_, _, rfl, rfl, by decide +kernel, by decide +kernel, ?_, by decide +kernel⟩
  rintro ⟨q, e, hq⟩
  have e : Num.fin 7 = Num.fin q := e
  cases e
  exact absurd hq (by norm_num)

/-- **C30 (thresholds).** A sample equal to a threshold activates the rules on both sides, although it falls on the left only. -/
theorem C30_threshold_false :
    (extract someRs classInput).bind (fun s => s.rules.mapM fun m => Cond.evaluate m.rule.cond ⟨1, [[.fin 1]]⟩) = .ok [[1], [1]] ∧
      classTree.falls (fun _ => 1) = ([⟨0, 1, false⟩], [2, 0]) := by
  decide +kernel

/-- **C30 (values) is false** without `get_leaf`: the two rules of a node predict the value of this node, and not those of the nodes
to which they lead. -/
theorem C30_value_false :
    (extract someRs { classInput with getLeaf := false }).map (fun s => s.rules.map fun m => m.rule.prediction) =
      .ok [.probs [(.text "no", 2), (.text "yes", 3)], .probs [(.text "no", 2), (.text "yes", 3)]] ∧
    classTree.leaves.map (fun e => predictionOf classInput e.2) =
      [.probs [(.text "no", 2), (.text "yes", 0)], .probs [(.text "no", 0), (.text "yes", 3)]] := by
  decide +kernel

/-- **C30 (single leaf) is false**: a tree which is one leaf has one leaf, but asking for the rules of the leaves raises
`AttributeError`. -/
theorem C30_root_false {R : RsEnv} {I : Input} {n : Nat} {v : List Rat} (h : GoodInput I n (.leaf v)) (hl : I.getLeaf = true) :
    extract R I = .error .attributeError := by
  have hst := h.stores
  cases hst with
  | leaf h1 h2 =>
  obtain ⟨names, e⟩ : ∃ names, featuresNames I = .ok names := by
    unfold featuresNames
    rcases h.names with ⟨l, e, -⟩ | ⟨e1, e2⟩
    · rw [e]; exact ⟨_, rfl⟩
    · rw [e1, e2]; exact ⟨_, rfl⟩
  obtain ⟨fuel, hf⟩ := Nat.exists_eq_succ_of_ne_zero (Nat.ne_of_gt (Nat.lt_of_le_of_lt (Nat.zero_le _) h.deep))
  have hv : visit R I names I.limit 0 none (RuleSet.blank I.stack) = (.error .attributeError, RuleSet.blank I.stack) := by
    rw [hf]
    unfold visit
    have e0 : Cond.pyItem I.feature 0 = .ok (-2) := pyItem_nat h1
    rw [e0, Py.bind_ok (Py.ofExcept_run _ _)]
    simp only [ne_eq, not_true_eq_false, if_false]
    unfold addLeaf
    rw [if_pos hl]
    rfl
  unfold extract
  rw [e]
  simp only [bind, Except.bind]
  rw [hv]

/-- **C30 (names) is false**: without names of features and with a version of sklearn which does not have `n_features_`, the
extraction raises `AttributeError` for every tree. -/
theorem C30_names_false {R : RsEnv} {I : Input} (h1 : I.names = none) (h2 : I.nFeatures = none) :
    extract R I = .error .attributeError := by
  unfold extract featuresNames
  rw [h1]
  simp only [h2]
  rfl

end Verif.TreeProps
