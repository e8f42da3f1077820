import Verif.TreeProps
import Verif.TreePredictSpec
import Verif.PredictProps
import Verif.RFunLemmas

/-!
# Lemmas for the predictions of the rules of a tree
-/

namespace Verif.TreePredict

open Verif Spec Tree Vote RuleSet RuleSetProps TreeProps

theorem filter_single {α : Type} {p : α → Bool} : ∀ {l : List α} {j : Nat} {a : α}, l[j]? = some a → p a = true →
    (∀ j' a', l[j']? = some a' → p a' = true → j' = j) → l.filter p = [a]
  | [], _, _, h, _, _ => by simp at h
  | b :: l, 0, a, h, hp, hu => by
    simp only [List.getElem?_cons_zero, Option.some.injEq] at h
    subst h
    have : l.filter p = [] := by
      rw [List.filter_eq_nil_iff]
      intro c hc hpc
      obtain ⟨i, hi, e⟩ := List.getElem_of_mem hc
      have := hu (i + 1) c (by rw [List.getElem?_cons_succ, List.getElem?_eq_getElem hi, e]) hpc
      omega
    rw [List.filter_cons_of_pos hp, this]
  | b :: l, j + 1, a, h, hp, hu => by
    rw [List.getElem?_cons_succ] at h
    have hb : ¬ p b = true := fun hb => by
      have := hu 0 b rfl hb
      omega
    rw [List.filter_cons_of_neg hb]
    refine filter_single h hp fun j' a' h1 h2 => ?_
    have := hu (j' + 1) a' (by rw [List.getElem?_cons_succ]; exact h1) h2
    omega

theorem leaves_nodup : ∀ t : DTree, t.leaves.Nodup
  | .leaf _ => by simp [DTree.leaves]
  | .node f a v l r => by
    unfold DTree.leaves
    refine List.Nodup.append ((leaves_nodup l).map ?_) ((leaves_nodup r).map ?_) ?_
    · rintro ⟨a, b⟩ ⟨c, d⟩ h
      simpa using h
    · rintro ⟨a, b⟩ ⟨c, d⟩ h
      simpa using h
    · intro e h1 h2
      obtain ⟨e1, -, rfl⟩ := List.mem_map.1 h1
      obtain ⟨e2, -, h⟩ := List.mem_map.1 h2
      simp at h

/-- A rule is active at a sample. -/
def activeAt (xs : Mat) (r : Rule) (k : Nat) : Bool :=
  match Cond.evaluate r.cond xs with
  | .ok v => v[k]? == some 1
  | .error _ => false

variable {R : RsEnv} {I : Input} {n : Nat} {t : DTree} {s : RuleSet} {xs : Mat} {x : Nat → Nat → Rat}

theorem rule_activation (h : GoodInput I n t) (hroot : ∃ f a v l r, t = .node f a v l r) (hs : extract R I = .ok s)
    (hc : n ≤ xs.ncols) {r : Rule} (hr : r ∈ rulesOf s) :
    Cond.evaluate r.cond xs = .ok (vec xs.rows.length (activeAt xs r)) ∧ r.length ≠ 0 := by
  obtain ⟨s', names, h1, h2, -, h3, h4⟩ := extract_ok (R := R) h fun _ => hroot
  rw [hs] at h1
  cases h1
  obtain ⟨m, hm, rfl⟩ := List.mem_map.1 hr
  obtain ⟨j, hj, ej⟩ := List.getElem_of_mem hm
  have hj' : j < (wanted I t).length := by rw [h4.length_eq]; exact hj
  have he := h4.get (i := j) hj' hj
  have em : s.rules.get ⟨j, hj⟩ = m := ej
  rw [em] at he
  refine ⟨?_, ?_⟩
  · obtain ⟨P, hP, -⟩ := he.evaluates (xs := xs) (by omega)
    rw [hP]
    congr 1
    refine List.ext_getElem? fun k => ?_
    unfold vec
    rw [List.getElem?_map, List.getElem?_map]
    by_cases hk : k < xs.rows.length
    · rw [List.getElem?_range hk, List.getElem?_eq_getElem hk]
      simp only [Option.map_some, activeAt, hP, List.getElem?_map, List.getElem?_eq_getElem hk, flag]
      split <;> simp
    · rw [List.getElem?_eq_none (by omega), List.getElem?_eq_none (by simpa using hk)]
      rfl
  · obtain ⟨fs, hI⟩ := he.inv
    unfold Rule.length
    rw [_root_.Verif.Cond.Shows.length hI.shows]
    have hne : ∃ u, u ∈ ((wanted I t).get ⟨j, hj'⟩).1 := by
      have hmem := List.get_mem (wanted I t) ⟨j, hj'⟩
      obtain ⟨f, a, v, l, r, rfl⟩ := hroot
      generalize (wanted I (.node f a v l r)).get ⟨j, hj'⟩ = e at hmem
      unfold wanted at hmem
      split at hmem
      · simp only [DTree.leaves, List.mem_append, List.mem_map] at hmem
        rcases hmem with ⟨e', -, rfl⟩ | ⟨e', -, rfl⟩ <;> exact ⟨_, List.mem_cons_self⟩
      · simp only [DTree.turns, List.mem_append, List.mem_cons, List.mem_map] at hmem
        rcases hmem with (rfl | ⟨e', -, rfl⟩) | (rfl | ⟨e', -, rfl⟩) <;> exact ⟨_, List.mem_cons_self⟩
    obtain ⟨u, hu⟩ := hne
    obtain ⟨f, hf, -⟩ := (hI.feats u.feature).2 ⟨u, hu, rfl⟩
    intro e0
    rw [List.length_eq_zero_iff.1 e0] at hf
    cases hf

/-- The one rule which is active at a sample -/
theorem one_active (h : GoodInput I n t) (hleaf : I.getLeaf = true) (hroot : ∃ f a v l r, t = .node f a v l r) (hs : extract R I = .ok s)
    (hx : TreeSamples I n t xs x) (hnr : NoReturn t) {k : Nat} (hk : k < xs.rows.length) :
    ∃ r, (rulesOf s).filter (fun r => activeAt xs r k) = [r] ∧ r ∈ rulesOf s ∧ r.prediction = predictionOf I (t.falls (x k)).2 := by
  have hrow := List.getElem?_eq_getElem hk
  obtain ⟨j, m, v, h1, h2, h3, h4, h5⟩ := C30_prediction h hleaf hroot hs hx.columns hrow (hx.numbers k _ hrow) (hx.inside k _ hrow)
  have hj : (rulesOf s)[j]? = some m.rule := by
    rw [List.getElem?_map, h2]
    rfl
  refine ⟨m.rule, filter_single hj ?_ ?_, List.mem_of_getElem? hj, h3⟩
  · simp [activeAt, h4, h5]
  · intro j' r hj' hr
    rw [List.getElem?_map] at hj'
    cases hm : s.rules[j']? with
    | none => rw [hm] at hj'; cases hj'
    | some m' =>
      rw [hm] at hj'
      cases hj'
      have hev := (rule_activation h hroot hs hx.columns (List.mem_map_of_mem (f := (·.rule)) (List.mem_of_getElem? hm))).1
      have hv : (vec xs.rows.length (activeAt xs m'.rule))[k]? = some 1 := by
        unfold vec
        rw [List.getElem?_map, List.getElem?_range hk]
        simp only [Option.map_some, hr, if_true]
      have h6 := C30_unique_partial h hleaf hroot hs hx.columns hrow (hx.numbers k _ hrow) hnr (hx.apart k hk) hm hev hv
      obtain ⟨i1, e1⟩ := List.getElem?_eq_some_iff.1 h1
      obtain ⟨i2, e2⟩ := List.getElem?_eq_some_iff.1 h6
      exact (leaves_nodup t).getElem_inj_iff.1 (e2.trans e1.symm)

/-- The kind of the ruleset, and its stacked activations -/
theorem extract_state (h : GoodInput I n t) (hleaf : I.getLeaf = true) (hroot : ∃ f a v l r, t = .node f a v l r) (hs : extract R I = .ok s) :
    s.ruleType = some I.kind ∧ s.stacked = none ∧ s.rules ≠ [] ∧ ∀ r ∈ rulesOf s, ∃ e ∈ t.leaves, r.prediction = predictionOf I e.2 := by
  obtain ⟨s', names, h1, h2, -, h3, h4⟩ := extract_ok (R := R) h fun _ => hroot
  rw [hs] at h1
  cases h1
  have hw : wanted I t = t.leaves := by
    unfold wanted
    rw [if_pos hleaf]
  rw [hw] at h4
  have hne : s.rules ≠ [] := by
    intro e
    rw [e] at h4
    have := falls_mem (fun _ => 0) t
    rw [List.forall₂_nil_right_iff.1 h4] at this
    cases this
  refine ⟨h3.typed hne, h3.stacked, hne, ?_⟩
  intro r hr
  obtain ⟨m, hm, rfl⟩ := List.mem_map.1 hr
  obtain ⟨j, hj, ej⟩ := List.getElem_of_mem hm
  have hj' : j < t.leaves.length := by rw [h4.length_eq]; exact hj
  have he := h4.get (i := j) hj' hj
  have em : s.rules.get ⟨j, hj⟩ = m := ej
  rw [em] at he
  exact ⟨_, List.get_mem _ _, he.prediction⟩

theorem activation_ok (h : GoodInput I n t) (hroot : ∃ f a v l r, t = .node f a v l r) (hs : extract R I = .ok s)
    (hc : n ≤ xs.ncols) (hst : ∀ v, R.env.store v = .ok ()) {k : Kind} {r : Rule} (hr : r ∈ rulesOf s) :
    activationOf (voteEnv R k).env (some (.arr xs)) r = .ok (some (vec xs.rows.length (activeAt xs r))) := by
  unfold activationOf Rule.evaluateActivation Rule.evaluate
  simp only [(rule_activation h hroot hs hc hr).1, bind, Except.bind]
  have : (voteEnv R k).env.store (vec xs.rows.length (activeAt xs r)) = .ok () := hst _
  rw [this]
  rfl

/-- The number which a rule predicts -/
def numberOfRule (r : Rule) : Rat :=
  match r.prediction with
  | .label (.num (.fin q)) => q
  | _ => 0

theorem regressors (h : GoodInput I n t) (hleaf : I.getLeaf = true) (hkind : I.kind = .regression)
    (hroot : ∃ f a v l r, t = .node f a v l r) (hs : extract R I = .ok s) (hx : TreeSamples I n t xs x) (hst : ∀ v, R.env.store v = .ok ()) :
    Regressors (voteEnv R .regression) (some (.arr xs)) (rulesOf s) xs.rows.length (activeAt xs) numberOfRule where
  points := List.length_pos_iff.2 hx.some
  act := fun _ hr => activation_ok h hroot hs hx.columns hst hr
  pred := by
    intro r hr
    obtain ⟨e, -, he⟩ := (extract_state h hleaf hroot hs).2.2.2 r hr
    unfold Rule.getPrediction numberOfRule
    rw [he]
    unfold predictionOf
    rw [hkind]
  feature := fun _ hr => (rule_activation h hroot hs hx.columns hr).2

/-! ## Classes -/

/-- The names of the classes which are written in a rule -/
def classNames (I : Input) (v : List Rat) : List Label :=
  match I.classes with
  | none => (List.range v.length).map fun i : Nat => Label.num (.fin i)
  | some names => names

theorem bestClass_zip {S : RFun.FloatStr} {L : List Label} {v : List Rat} (hne : v ≠ []) (hl : v.length ≤ L.length)
    (hnum : ∀ c ∈ L, ∃ q, c = .num (.fin q)) :
    ∃ (i : Nat) (q : Rat) (c : Label), RFun.bestClass S (L.zip v) = .ok c ∧ v[i]? = some q ∧ L[i]? = some c ∧
      ∀ j r, v[j]? = some r → r ≤ q ∧ (j < i → r < q) := by
  have hp : L.zip v ≠ [] := by
    intro e
    have h1 : (L.zip v).length = v.length := by rw [List.length_zip]; omega
    rw [e] at h1
    exact hne (List.length_eq_zero_iff.1 h1.symm)
  obtain ⟨pre, b, post, h1, h2, h3, h4⟩ := RFun.bestClass_spec S hp (by
    rintro ⟨a, qa⟩ ha ⟨b, qb⟩ hb
    obtain ⟨x, rfl⟩ := hnum a (List.of_mem_zip ha).1
    obtain ⟨y, rfl⟩ := hnum b (List.of_mem_zip hb).1
    simp [RFun.probaLt])
  have hi : (L.zip v)[pre.length]? = some b := by rw [h1]; simp
  have hget : ∀ (j : Nat) (r : Rat), v[j]? = some r → ∃ c, L[j]? = some c ∧ (L.zip v)[j]? = some (c, r) := by
    intro j r hj
    obtain ⟨hjl, e⟩ := List.getElem?_eq_some_iff.1 hj
    have hL : j < L.length := by omega
    refine ⟨L[j], List.getElem?_eq_getElem hL, ?_⟩
    rw [List.getElem?_eq_getElem (by rw [List.length_zip]; omega), List.getElem_zip, e]
  have hlt : pre.length < v.length := by
    have h5 := (List.getElem?_eq_some_iff.1 hi).1
    rw [List.length_zip] at h5
    omega
  obtain ⟨c, hc, e⟩ := hget _ _ (List.getElem?_eq_getElem hlt)
  rw [hi] at e
  have e : b = (c, v[pre.length]) := Option.some.inj e
  refine ⟨pre.length, v[pre.length], c, by rw [h2, e], List.getElem?_eq_getElem hlt, hc, ?_⟩
  intro j r hj
  obtain ⟨c', -, e'⟩ := hget j r hj
  have hb : b.2 = v[pre.length] := by rw [e]
  refine ⟨hb ▸ h4 _ (List.mem_of_getElem? e'), fun hjl => hb ▸ h3 (c', r) ?_⟩
  rw [h1, List.getElem?_append_left hjl] at e'
  exact List.mem_of_getElem? e'

/-- The class which a rule predicts -/
def classOfRule (E : Env) (r : Rule) : Label :=
  match r.getPrediction E with
  | .ok (some c) => c
  | _ => .num .nan

/-- The names of classes are numbers: there are none, or they are. -/
theorem class_of_leaf {E : Env} {v : List Rat} {r : Rule} (hkind : I.kind = .classification) (hf : ValueFits I v) (hne : v ≠ [])
    (hnum : ∀ names, I.classes = some names → ∀ c ∈ names, ∃ q, c = .num (.fin q)) (hr : r.prediction = predictionOf I v) :
    r.getPrediction E = .ok (some (classOfRule E r)) ∧ ClassOf I.classes v (classOfRule E r) ∧ IsClass (classOfRule E r) := by
  unfold ValueFits at hf
  rw [hkind] at hf
  unfold predictionOf at hr
  rw [hkind] at hr
  simp only at hf hr
  cases hc : I.classes with
  | none =>
    rw [hc] at hr
    simp only at hr
    obtain ⟨i, q, c, h1, h2, h3, h4⟩ := bestClass_zip (S := E.floatStr) (L := (List.range v.length).map fun i : Nat => Label.num (.fin i)) hne
      (by simp) (by
        intro c hc
        obtain ⟨i, -, rfl⟩ := List.mem_map.1 hc
        exact ⟨_, rfl⟩)
    have hp : r.getPrediction E = .ok (some c) := by
      unfold Rule.getPrediction
      rw [hr]
      simp only [h1]
      rfl
    have hcl : classOfRule E r = c := by simp only [classOfRule, hp]
    have hi : i < v.length := (List.getElem?_eq_some_iff.1 h2).1
    rw [List.getElem?_map, List.getElem?_range hi] at h3
    have h3 : Label.num (.fin (i : Rat)) = c := Option.some.inj h3
    refine ⟨by rw [hp, hcl], ⟨i, q, h2, h4, .inl ⟨rfl, by rw [hcl, ← h3]⟩⟩, by rw [hcl, ← h3]; exact .inl ⟨_, rfl⟩⟩
  | some names =>
    rw [hc] at hr
    simp only at hr
    obtain ⟨i, q, c, h1, h2, h3, h4⟩ := bestClass_zip (S := E.floatStr) (L := names) hne (hf names hc) (hnum names hc)
    have hp : r.getPrediction E = .ok (some c) := by
      unfold Rule.getPrediction
      rw [hr]
      simp only [h1]
      rfl
    have hcl : classOfRule E r = c := by simp only [classOfRule, hp]
    refine ⟨by rw [hp, hcl], ⟨i, q, h2, h4, .inr ⟨names, rfl, by rw [hcl]; exact h3⟩⟩, ?_⟩
    rw [hcl]
    exact .inl (hnum names hc c (List.mem_of_getElem? h3))

theorem leaves_fit : ∀ t : DTree, TreeFits I n t → ∀ e ∈ t.leaves, ValueFits I e.2
  | .leaf v, h, e, he => by
    simp only [DTree.leaves, List.mem_singleton] at he
    subst he
    exact h
  | .node f a v l r, h, e, he => by
    obtain ⟨-, -, h2, h3⟩ := h
    unfold DTree.leaves at he
    rcases List.mem_append.1 he with he | he
    · obtain ⟨e', he', rfl⟩ := List.mem_map.1 he
      exact leaves_fit l h2 e' he'
    · obtain ⟨e', he', rfl⟩ := List.mem_map.1 he
      exact leaves_fit r h3 e' he'

theorem classifiers (h : GoodInput I n t) (hleaf : I.getLeaf = true) (hkind : I.kind = .classification)
    (hnum : ∀ names, I.classes = some names → ∀ c ∈ names, ∃ q, c = .num (.fin q)) (hv : ∀ e ∈ t.leaves, e.2 ≠ [])
    (hroot : ∃ f a v l r, t = .node f a v l r) (hs : extract R I = .ok s) (hx : TreeSamples I n t xs x) (hst : ∀ v, R.env.store v = .ok ()) :
    Classifiers (voteEnv R .classification) (some (.arr xs)) (rulesOf s) xs.rows.length (activeAt xs)
      (classOfRule (voteEnv R .classification).env) where
  points := List.length_pos_iff.2 hx.some
  act := fun _ hr => activation_ok h hroot hs hx.columns hst hr
  pred := by
    intro r hr
    obtain ⟨e, he, hp⟩ := (extract_state h hleaf hroot hs).2.2.2 r hr
    exact (class_of_leaf hkind (leaves_fit t h.fits e he) (hv e he) hnum hp).1
  isClass := by
    intro r hr
    obtain ⟨e, he, hp⟩ := (extract_state h hleaf hroot hs).2.2.2 r hr
    exact (class_of_leaf hkind (leaves_fit t h.fits e he) (hv e he) hnum hp).2.2

theorem wins_single {rules : List Rule} {on : Rule → Nat → Bool} {c : Rule → Label} {wt : Rule → Rat} {r : Rule} {k : Nat}
    (h : rules.filter (fun r => on r k) = [r]) (hw : 0 < wt r) : Wins rules on c wt (c r) k := by
  have key : ∀ b, votes rules on c wt b k = if c r = b then wt r else 0 := by
    intro b
    unfold votes
    have : rules.filter (fun r => decide (on r k = true ∧ c r = b)) = (rules.filter fun r => on r k).filter fun r => decide (c r = b) := by
      rw [List.filter_filter]
      congr 1
      funext r
      by_cases h1 : on r k = true <;> by_cases h2 : c r = b <;> simp [h1, h2]
    rw [this, h]
    by_cases h2 : c r = b <;> simp [h2]
  refine ⟨by rw [key, if_pos rfl]; exact hw, fun b hb => ?_⟩
  rw [key, key, if_pos rfl, if_neg (Ne.symm hb)]
  exact hw

end Verif.TreePredict
