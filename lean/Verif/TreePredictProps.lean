import Verif.TreePredictLemmas

/-!
# Properties: the rules of a tree predict like the tree (C84)
-/

namespace Verif.TreeProps

open Verif Spec Tree Vote RuleSetProps TreePredict
open _root_.Verif.RuleSet (voteEnv)

variable {R : RsEnv} {I : Input} {n : Nat} {t : DTree} {s : RuleSet} {xs : Mat} {x : Nat → Nat → Rat}

/-- **C84 (regression), partial.** The ruleset of the leaves of a regression tree predicts for each sample the value of the leaf in which
the sample falls.
Missing: leaves with the value 0 (`C84_zero_false`, `C84_zero_first_false`), trees which return to a feature (`C84_return_false`) and samples
on thresholds (`C84_threshold_false`), for which it is false; features out of bounds, given in a DataFrame, or which cannot be stored. -/
theorem C84_regression_partial (h : GoodInput I n t) (hleaf : I.getLeaf = true) (hkind : I.kind = .regression)
    (hroot : ∃ f a v l r, t = .node f a v l r) (hs : extract R I = .ok s) (hx : TreeSamples I n t xs x) (hnr : NoReturn t)
    (hz : ∀ e ∈ t.leaves, e.2.headD 0 ≠ 0) (hst : ∀ v, R.env.store v = .ok ()) :
    RuleSet.predict R (some (.arr xs)) none s =
      (.ok ((List.range xs.rows.length).map fun k => .label (.num (.fin (treeNumber t (x k))))), s) := by
  obtain ⟨h1, h2, h3, h4⟩ := extract_state h hleaf hroot hs
  have hnz : ∀ r ∈ rulesOf s, numberOfRule r ≠ 0 := by
    intro r hr
    obtain ⟨e, he, hp⟩ := h4 r hr
    have : numberOfRule r = e.2.headD 0 := by
      unfold numberOfRule
      rw [hp]
      unfold predictionOf
      rw [hkind]
    rw [this]
    exact hz e he
  have hone := fun k (hk : k < xs.rows.length) => one_active h hleaf hroot hs hx hnr hk
  obtain ⟨l, h5, h6, h7⟩ := C22_predict_partial (on := activeAt xs) (p := numberOfRule) (h1.trans (by rw [hkind])) (.inr h2) h3
    (regressors h hleaf hkind hroot hs hx hst) (.inr ⟨by
      intro k hk _
      obtain ⟨r, e1, e2, -⟩ := hone k hk
      unfold activeSum
      rw [e1]
      simpa using hnz r e2, fun r rest e => hnz r (by rw [e]; simp)⟩)
    (by
      intro k hk
      obtain ⟨r, e1, -⟩ := hone k hk
      unfold activeCount
      rw [e1]
      simp) (.inr (.inl (by simp)))
  rw [h5]
  congr 2
  refine List.ext_getElem? fun k => ?_
  rw [List.getElem?_map, List.getElem?_map]
  by_cases hk : k < xs.rows.length
  · obtain ⟨v, e1, e2⟩ := h7 k hk
    obtain ⟨r, e3, e4, e5⟩ := hone k hk
    have hc : activeCount (rulesOf s) (activeAt xs) k = 1 := by
      unfold activeCount
      rw [e3]
      rfl
    obtain ⟨m, rfl, hm, -⟩ := e2.1 (by rw [hc]; decide)
    have hsum : activeSum (rulesOf s) (activeAt xs) numberOfRule k = treeNumber t (x k) := by
      unfold activeSum
      rw [e3]
      simp only [List.map_cons, List.map_nil, List.sum_cons, List.sum_nil, add_zero, numberOfRule, e5, predictionOf, hkind, treeNumber]
    rw [hc, hsum] at hm
    rw [e1, List.getElem?_range hk]
    simp only [Option.map_some]
    have : m = treeNumber t (x k) := by simpa using hm
    rw [this]
  · rw [List.getElem?_eq_none (by omega), List.getElem?_eq_none (by simpa using hk)]
    rfl

/-- **C84 (regression, weights), partial.** The same with any positive weights, as one rule only is active at each sample.
Missing: as for `C84_regression_partial`. -/
theorem C84_weighted_partial (h : GoodInput I n t) (hleaf : I.getLeaf = true) (hkind : I.kind = .regression)
    (hroot : ∃ f a v l r, t = .node f a v l r) (hs : extract R I = .ok s) (hx : TreeSamples I n t xs x) (hnr : NoReturn t)
    (hz : ∀ e ∈ t.leaves, e.2.headD 0 ≠ 0) (hst : ∀ v, R.env.store v = .ok ()) {w : WeightsArg} {wt : Rule → Rat}
    (hw : WeightsGiven (voteEnv R .regression) (rulesOf s) wt w) (hpos : ∀ r ∈ rulesOf s, 0 < wt r) :
    RuleSet.predict R (some (.arr xs)) (some w) s =
      (.ok ((List.range xs.rows.length).map fun k => .label (.num (.fin (treeNumber t (x k))))), s) := by
  obtain ⟨h1, h2, h3, h4⟩ := extract_state h hleaf hroot hs
  have hnz : ∀ r ∈ rulesOf s, numberOfRule r ≠ 0 := by
    intro r hr
    obtain ⟨e, he, hp⟩ := h4 r hr
    have : numberOfRule r = e.2.headD 0 := by
      unfold numberOfRule
      rw [hp]
      unfold predictionOf
      rw [hkind]
    rw [this]
    exact hz e he
  have hne : rulesOf s ≠ [] := by simpa [rulesOf] using h3
  obtain ⟨r0, hr0⟩ := List.exists_mem_of_ne_nil _ hne
  have hone := fun k (hk : k < xs.rows.length) => one_active h hleaf hroot hs hx hnr hk
  obtain ⟨l, h5, h6, h7⟩ := C21_predict_partial (on := activeAt xs) (p := numberOfRule) (h1.trans (by rw [hkind])) (.inr h2)
    (regressors h hleaf hkind hroot hs hx hst) hw (fun r hr => (hpos r hr).le) ⟨r0, hr0, (hpos r0 hr0).ne'⟩ (.inr ⟨by
      intro k hk _
      obtain ⟨r, e1, e2, -⟩ := hone k hk
      unfold activeSum
      rw [e1]
      simpa using ⟨hnz r e2, (hpos r e2).ne'⟩, fun r rest e => hnz r (List.mem_of_mem_filter (p := fun r => wt r ≠ 0) (by
        have : r ∈ voters (rulesOf s) wt := by rw [e]; simp
        exact this))⟩)
  rw [h5]
  congr 2
  refine List.ext_getElem? fun k => ?_
  rw [List.getElem?_map, List.getElem?_map]
  by_cases hk : k < xs.rows.length
  · obtain ⟨v, e1, e2⟩ := h7 k hk
    obtain ⟨r, e3, e4, e5⟩ := hone k hk
    have hc : activeSum (rulesOf s) (activeAt xs) wt k = wt r := by
      unfold activeSum
      rw [e3]
      simp
    obtain ⟨m, rfl, hm, -⟩ := e2.1 (by rw [hc]; exact (hpos r e4).ne')
    have hsum : activeSum (rulesOf s) (activeAt xs) (fun r => numberOfRule r * wt r) k = treeNumber t (x k) * wt r := by
      unfold activeSum
      rw [e3]
      simp only [List.map_cons, List.map_nil, List.sum_cons, List.sum_nil, add_zero, numberOfRule, e5, predictionOf, hkind, treeNumber]
    rw [hc, hsum] at hm
    rw [e1, List.getElem?_range hk]
    simp only [Option.map_some]
    have : m = treeNumber t (x k) := mul_right_cancel₀ (hpos r e4).ne' hm
    rw [this]
  · rw [List.getElem?_eq_none (by omega), List.getElem?_eq_none (by simpa using hk)]
    rfl

/-- **C84 (classes), partial.** The ruleset of the leaves of a tree for classes predicts for each sample the class which has the most points
in the leaf in which the sample falls.
Missing: as for `C84_regression_partial`, except leaves with the value 0; classes which are texts (the model does not distinguish the list
of the tree from the array of `fit`, in which the numbers are texts when the classes are). -/
theorem C84_classes_partial (h : GoodInput I n t) (hleaf : I.getLeaf = true) (hkind : I.kind = .classification)
    (hroot : ∃ f a v l r, t = .node f a v l r) (hs : extract R I = .ok s) (hx : TreeSamples I n t xs x) (hnr : NoReturn t)
    (hnum : ∀ names, I.classes = some names → ∀ c ∈ names, ∃ q, c = .num (.fin q)) (hv : ∀ e ∈ t.leaves, e.2 ≠ [])
    (hst : ∀ v, R.env.store v = .ok ()) :
    ∃ l : List Label, RuleSet.predict R (some (.arr xs)) none s = (.ok (l.map .label), s) ∧ l.length = xs.rows.length ∧
      ∀ k < xs.rows.length, ∃ c, l[k]? = some c ∧ ClassOf I.classes (t.falls (x k)).2 c := by
  obtain ⟨h1, h2, h3, h4⟩ := extract_state h hleaf hroot hs
  have hone := fun k (hk : k < xs.rows.length) => one_active h hleaf hroot hs hx hnr hk
  have h0 : 0 < xs.rows.length := List.length_pos_iff.2 hx.some
  obtain ⟨l, h5, h6, h7⟩ := C24_predict_partial (on := activeAt xs) (h1.trans (by rw [hkind])) (.inr h2)
    (classifiers h hleaf hkind hnum hv hroot hs hx hst) (by
      obtain ⟨r, e1, e2, -⟩ := hone 0 h0
      have : r ∈ (rulesOf s).filter (fun r => activeAt xs r 0) := by rw [e1]; simp
      exact ⟨r, e2, 0, h0, (List.mem_filter.1 this).2⟩)
  refine ⟨l, h5, h6, fun k hk => ?_⟩
  obtain ⟨r, e1, e2, e3⟩ := hone k hk
  refine ⟨_, (h7 k hk).1 _ (wins_single e1 (by norm_num)), ?_⟩
  have hm := falls_mem (x k) t
  exact (class_of_leaf hkind (leaves_fit t h.fits _ hm) (hv _ hm) hnum e3).2.1

/-! ## Examples -/

/-- A tree on one feature: at most 1, the value `a`; between 1 and 3, the value `b`; above 3, the value `c` -/
def lineTree (a b c : List Rat) : DTree := .node 0 1 [4] (.leaf a) (.node 0 3 [6] (.leaf b) (.leaf c))

def lineInput (k : Kind) (a b c : List Rat) : Input where
  feature := [0, -2, 0, -2, -2]
  threshold := [.fin 1, .fin (-2), .fin 3, .fin (-2), .fin (-2)]
  left := [1, -1, 3, -1, -1]
  right := [2, -1, 4, -1, -1]
  value := [[4], a, [6], b, c]
  nFeatures := some 1
  kind := k
  xmins := [.fin 0]
  xmaxs := [.fin 10]
  names := none
  classes := none
  getLeaf := true
  stack := true
  sortBy := "index"
  limit := 1000

theorem line_good (k : Kind) {a b c : List Rat} (ha : a ≠ []) (hb : b ≠ []) (hc : c ≠ []) :
    GoodInput (lineInput k a b c) 1 (lineTree a b c) where
  stores := .node (f := 0) (j := 1) (k := 2) rfl rfl rfl rfl rfl (.leaf rfl rfl)
    (.node (f := 0) (j := 3) (k := 4) rfl rfl rfl rfl rfl (.leaf rfl rfl) (.leaf rfl rfl))
  fits := by cases k <;> simp [lineTree, TreeFits, ValueFits, lineInput, ha, hb, hc]
  deep := show 2 < 1000 by decide
  sortBy := .inl rfl
  mins := rfl
  maxs := rfl
  minsNum := by simp [lineInput]
  maxsNum := by simp [lineInput]
  names := .inr ⟨rfl, rfl⟩

/-- Three samples, one in each leaf -/
def lineXs : Mat := ⟨1, [[.fin 4], [.fin (1 / 2)], [.fin 2]]⟩

def lineX : Nat → Nat → Rat := fun k _ => if k = 0 then 4 else if k = 1 then 1 / 2 else 2

theorem line_samples (k : Kind) (a b c : List Rat) : TreeSamples (lineInput k a b c) 1 (lineTree a b c) lineXs lineX where
  some := by decide
  columns := le_refl _
  numbers := by
    intro k row hk f hf
    obtain rfl : f = 0 := by omega
    match k with
    | 0 => cases hk; rfl
    | 1 => cases hk; rfl
    | 2 => cases hk; rfl
    | k + 3 => simp [lineXs] at hk
  inside := by
    intro k row hk f lo hi h1 h2
    match f with
    | f + 1 => simp [lineInput] at h1
    | 0 =>
      cases h1; cases h2
      match k with
      | 0 => cases hk; exact ⟨4, rfl, by simp [AtLeast], by simp [AtMost]; norm_num⟩
      | 1 => cases hk; exact ⟨1 / 2, rfl, by simp [AtLeast], by simp [AtMost]; norm_num⟩
      | 2 => cases hk; exact ⟨2, rfl, by simp [AtLeast], by simp [AtMost]; norm_num⟩
      | k + 3 => simp [lineXs] at hk
  apart := by
    intro k hk e he u hu
    have hu' : u.threshold = 1 ∨ u.threshold = 3 := by
      simp only [lineTree, DTree.leaves, List.map_cons, List.map_nil, List.cons_append, List.nil_append, List.mem_cons,
        List.not_mem_nil, or_false] at he
      rcases he with rfl | rfl | rfl <;> simp only [List.mem_cons, List.not_mem_nil, or_false] at hu
      · rw [hu]; exact .inl rfl
      · rcases hu with rfl | rfl
        · exact .inl rfl
        · exact .inr rfl
      · rcases hu with rfl | rfl
        · exact .inl rfl
        · exact .inr rfl
    unfold lineX
    rcases hu' with e | e <;> rw [e] <;> split <;> (try split) <;> norm_num

theorem line_noReturn (a b c : List Rat) : NoReturn (lineTree a b c) := by
  intro e he p1 u p2 hp
  simp only [lineTree, DTree.leaves, List.map_cons, List.map_nil, List.cons_append, List.nil_append, List.mem_cons,
    List.not_mem_nil, or_false] at he
  rcases he with rfl | rfl | rfl
  all_goals
    match p1, hp with
    | [], hp =>
      simp only [List.nil_append, List.cons.injEq] at hp
      obtain ⟨rfl, rfl⟩ := hp
      first
        | exact .inl rfl
        | exact .inr (by simp)
    | [_], hp =>
      simp only [List.cons_append, List.nil_append, List.cons.injEq] at hp
      first
        | (obtain ⟨-, rfl, rfl⟩ := hp; first | exact .inl rfl | exact .inr (by simp))
        | (simp at hp)
    | _ :: _ :: q, hp => simp at hp

/-- The tree `lineTree [3] [5] [7]` meets the hypotheses of C84; its ruleset predicts 7, 3 and 5. -/
example : ∃ s, extract someRs (lineInput .regression [3] [5] [7]) = .ok s ∧
    RuleSet.predict someRs (some (.arr lineXs)) none s = (.ok [.label (.num (.fin 7)), .label (.num (.fin 3)), .label (.num (.fin 5))], s) := by
  obtain ⟨s, hs, -⟩ := C30_rules (R := someRs) (line_good .regression (a := [3]) (b := [5]) (c := [7]) (by simp) (by simp) (by simp)) fun _ => ⟨_, _, _, _, _, rfl⟩
  refine ⟨s, hs, ?_⟩
  rw [C84_regression_partial (line_good .regression (a := [3]) (b := [5]) (c := [7]) (by simp) (by simp) (by simp)) rfl rfl ⟨_, _, _, _, _, rfl⟩ hs (line_samples .regression [3] [5] [7]) (line_noReturn [3] [5] [7])
    (by decide +kernel) (fun _ => rfl)]
  have : (List.range lineXs.rows.length).map (fun k => treeNumber (lineTree [3] [5] [7]) (lineX k)) = [7, 3, 5] := by decide +kernel
  have e := congrArg (List.map fun q : Rat => Cell.label (.num (.fin q))) this
  rw [List.map_map] at e
  exact Prod.ext (congrArg Except.ok e) rfl

/-- A tree for classes without names which meets the hypotheses of C84; its ruleset predicts the classes 0, 0 and 1. -/
example : ∃ s, extract someRs (lineInput .classification [2, 0] [0, 3] [2, 2]) = .ok s ∧
    (RuleSet.predict someRs (some (.arr lineXs)) none s).1 = .ok [.label (.num (.fin 0)), .label (.num (.fin 0)), .label (.num (.fin 1))] ∧
    ∃ l : List Label, RuleSet.predict someRs (some (.arr lineXs)) none s = (.ok (l.map .label), s) ∧ l.length = 3 ∧
      ∀ k < 3, ∃ c, l[k]? = some c ∧ ClassOf none ((lineTree [2, 0] [0, 3] [2, 2]).falls (lineX k)).2 c :=
  ⟨_, rfl, by decide +kernel, C84_classes_partial (line_good .classification (by simp) (by simp) (by simp)) rfl rfl ⟨_, _, _, _, _, rfl⟩ rfl
    (line_samples _ _ _ _) (line_noReturn _ _ _) (fun _ h => nomatch h) (by decide +kernel) (fun _ => rfl)⟩

/-- **C84 is false of a leaf with the value 0**: its samples are predicted NaN. -/
theorem C84_zero_false : GoodInput (lineInput .regression [3] [0] [7]) 1 (lineTree [3] [0] [7]) ∧ TreeSamples (lineInput .regression [3] [0] [7]) 1 (lineTree [3] [0] [7]) lineXs lineX ∧
    treeNumber (lineTree [3] [0] [7]) (lineX 2) = 0 ∧ ∃ s, extract someRs (lineInput .regression [3] [0] [7]) = .ok s ∧
      (RuleSet.predict someRs (some (.arr lineXs)) none s).1 = .ok [.label (.num (.fin 7)), .label (.num (.fin 3)), .label (.num .nan)] :=
  ⟨line_good .regression (a := [3]) (b := [0]) (c := [7]) (by simp) (by simp) (by simp), line_samples .regression [3] [0] [7], by decide +kernel, _, rfl, by decide +kernel⟩

/-- **C84 is false of a first leaf with the value 0**: predicting raises `TypeError`. -/
theorem C84_zero_first_false : GoodInput (lineInput .regression [0] [5] [7]) 1 (lineTree [0] [5] [7]) ∧ TreeSamples (lineInput .regression [0] [5] [7]) 1 (lineTree [0] [5] [7]) lineXs lineX ∧
    treeNumber (lineTree [0] [5] [7]) (lineX 1) = 0 ∧ ∃ s, extract someRs (lineInput .regression [0] [5] [7]) = .ok s ∧
      (RuleSet.predict someRs (some (.arr lineXs)) none s).1 = .error .typeError :=
  ⟨line_good .regression (a := [0]) (b := [5]) (c := [7]) (by simp) (by simp) (by simp), line_samples .regression [0] [5] [7], by decide +kernel, _, rfl, by decide +kernel⟩

/-- **C84 is false of samples equal to a threshold**: the prediction is the mean of the two leaves. -/
theorem C84_threshold_false : GoodInput (lineInput .regression [3] [5] [7]) 1 (lineTree [3] [5] [7]) ∧ treeNumber (lineTree [3] [5] [7]) (fun _ => 1) = 3 ∧
    ∃ s, extract someRs (lineInput .regression [3] [5] [7]) = .ok s ∧
      (RuleSet.predict someRs (some (.arr ⟨1, [[.fin 1]]⟩)) none s).1 = .ok [.label (.num (.fin 4))] :=
  ⟨line_good .regression (a := [3]) (b := [5]) (c := [7]) (by simp) (by simp) (by simp), by decide +kernel, _, rfl, by decide +kernel⟩

/-- **C84 is false of trees which return to a feature**: for `a = 7` and `b = 2` the tree `someTree` says 40, its rules 35. -/
theorem C84_return_false : GoodInput (someInput true) 2 someTree ∧ treeNumber someTree (fun f => if f = 0 then 7 else 2) = 40 ∧
    ∃ s, extract someRs (someInput true) = .ok s ∧
      (RuleSet.predict someRs (some (.arr ⟨2, [[.fin 7, .fin 2]]⟩)) none s).1 = .ok [.label (.num (.fin 35))] :=
  ⟨some_good true, by decide +kernel, _, rfl, by decide +kernel⟩

end Verif.TreeProps
