import Verif.RowOrderCritLemmas

/-!
# Lemmas: the criterion of a ruleset of classification rules on the same points in two orders
-/

namespace Verif.RowOrder

open Verif Spec RuleSet Vote

/-! ## The success rate -/

theorem rate_map {α : Type} {L L' : List α} (h : L.Perm L') (f g : α → Label) :
    RFun.successRateVector (L.map f) (L.map g) = RFun.successRateVector (L'.map f) (L'.map g) := by
  have e : ∀ L : List α, List.zipWith Label.eq (L.map f) (L.map g) = L.map fun x => Label.eq (f x) (g x) := by
    intro L
    rw [List.zipWith_map, List.zipWith_self]
  have h1 : (L.map fun x => Label.eq (f x) (g x)).count true = (L'.map fun x => Label.eq (f x) (g x)).count true := (h.map _).count_eq _
  have h2 : ((L.map f).filter fun p => !p.isNaN).length = ((L'.map f).filter fun p => !p.isNaN).length := ((h.map f).filter _).length_eq
  unfold RFun.successRateVector
  simp only [e, h1, h2, List.length_map, h.length_eq]

theorem vector_order {m : String} {a a' : List Nat} {p p' y y' : List Label} (hn : p.length = a.length) (hn' : p'.length = a'.length)
    (h : SamePairs (a.zip p) y (a'.zip p') y') :
    RFun.classificationCriterionVector m a p y = RFun.classificationCriterionVector m a' p' y' := by
  have key : ∀ {a : List Nat} {p y : List Label}, p.length = a.length → (a.zip p).length = y.length →
      RFun.classificationCriterionVector m a p y =
        (if m = "success_rate" then RFun.successRateVector ((((a.zip p).zip y).filter fun t => decide (t.1.1 ≠ 0)).map fun t => t.1.2)
          ((((a.zip p).zip y).filter fun t => decide (t.1.1 ≠ 0)).map fun t => t.2) else .error .valueError) := by
    intro a p y h1 h2
    have hay : a.length = y.length := by rw [← h2, List.length_zip, h1, Nat.min_self]
    have e1 : a.zip y = ((a.zip p).zip y).map fun t => (t.1.1, t.2) := by
      conv_lhs => rw [← List.map_fst_zip (l₁ := a) (l₂ := p) (by omega)]
      rw [List.zip_map_left]
      rfl
    have e2 : a.zip p = ((a.zip p).zip y).map fun t => t.1 := (List.map_fst_zip (by omega)).symm
    have f1 : ((a.zip y).filter fun p => decide (p.1 ≠ 0)).map (·.2) =
        (((a.zip p).zip y).filter fun t => decide (t.1.1 ≠ 0)).map fun t => t.2 := by
      rw [e1, List.filter_map, List.map_map]
      rfl
    have f2 : ((a.zip p).filter fun p => decide (p.1 ≠ 0)).map (·.2) =
        (((a.zip p).zip y).filter fun t => decide (t.1.1 ≠ 0)).map fun t => t.1.2 := by
      conv_lhs => rw [e2]
      rw [List.filter_map, List.map_map]
      rfl
    unfold RFun.classificationCriterionVector
    rw [extract_zip hay, extract_zip h1.symm, f1, f2]
    simp only [bind, Except.bind, h1, ne_eq, not_true_eq_false, if_false]
  rw [key hn h.1, key hn' h.2.1]
  split
  · exact rate_map (h.2.2.filter _) _ _
  · rfl

/-! ## The activation -/

theorem activations_both {R : RsEnv} {xs xs' : Xs} {y y' : List Label} (hp : SamePoints xs y xs' y') {rules : List Member} {acts acts' : List (List Nat)}
    (h : rules.mapM (fun m : Member => m.rule.evaluateActivation (R.ofKind m.kind) xs) = .ok acts)
    (h' : rules.mapM (fun m : Member => m.rule.evaluateActivation (R.ofKind m.kind) xs') = .ok acts') :
    ∃ fs : List (List Num → Bool), acts = fs.map (bits xs) ∧ acts' = fs.map (bits xs') := by
  induction rules generalizing acts acts' with
  | nil => cases h; cases h'; exact ⟨[], rfl, rfl⟩
  | cons m rules ih =>
    rw [List.mapM_cons] at h h'
    simp only [bind, Except.bind] at h h'
    split at h
    · cases h
    rename_i v hv
    split at h
    · cases h
    rename_i l hl
    split at h'
    · cases h'
    rename_i v' hv'
    split at h'
    · cases h'
    rename_i l' hl'
    cases h
    cases h'
    obtain ⟨fs, e, e'⟩ := ih hl hl'
    have g := evaluateActivation_eq hv
    have g' := evaluateActivation_eq hv'
    rcases evaluate_both hp m.rule.cond with ⟨err, he, -⟩ | ⟨f, hf, hf'⟩
    · rw [he] at g
      cases g
    · rw [hf] at g
      rw [hf'] at g'
      cases g
      cases g'
      exact ⟨f :: fs, by rw [e]; rfl, by rw [e']; rfl⟩

theorem self_bits {R : RsEnv} {xs : Xs} {rules : List Member} (hne : rules ≠ []) {fs : List (List Num → Bool)} {a : Option (List Nat)}
    (ha : rules.mapM (fun m : Member => m.rule.evaluateActivation (R.ofKind m.kind) xs) = .ok (fs.map (bits xs)))
    (h : evaluateSelf R (some xs) rules = .ok a) : a = some (bits xs fun r => fs.any fun f => f r) := by
  have hu : ∀ {u}, unionAll R (fs.map (bits xs)) = .ok u → u = bits xs fun r => fs.any fun f => f r := by
    intro u h
    rw [unionAll_vec (n := (rowsOf xs).length) (fun v hv => by
      obtain ⟨f, -, rfl⟩ := List.mem_map.1 hv
      exact ⟨_, bits_vec xs f⟩) h, bits_vec]
    apply vec_congr
    intro i hi
    rw [List.any_map, List.getElem?_eq_getElem hi]
    simp only [Option.map_some, Option.getD_some]
    congr 1
    funext f
    simp only [Function.comp_apply, bits_vec, isOne_vec hi, List.getElem?_eq_getElem hi, Option.map_some, Option.getD_some]
  unfold evaluateSelf at h
  rw [if_neg fun e => hne (List.length_eq_zero_iff.1 e)] at h
  simp only [activations, ha, Except.map, bind, Except.bind] at h
  split at h
  · rename_i hx; cases hx
  · rename_i v hx
    split at h
    · cases h
    cases h
    cases fs with
    | nil => cases Option.some.inj hx
    | cons f rest =>
      cases rest with
      | cons _ _ => cases Option.some.inj hx
      | nil =>
        obtain rfl : bits xs f = v := by
          have := Option.some.inj hx
          simpa using this
        simp
  · rename_i hx
    cases hx
    split at h
    · cases h
    rename_i u hu'
    cases h
    rw [hu hu']

theorem self_both {R : RsEnv} {xs xs' : Xs} {y y' : List Label} (hp : SamePoints xs y xs' y') {rules : List Member} (hne : rules ≠ [])
    {a a' : Option (List Nat)} (h : evaluateSelf R (some xs) rules = .ok a) (h' : evaluateSelf R (some xs') rules = .ok a') :
    ∃ f, a = some (bits xs f) ∧ a' = some (bits xs' f) := by
  have some_acts : ∀ {xs : Xs} {a : Option (List Nat)}, evaluateSelf R (some xs) rules = .ok a →
      ∃ acts, rules.mapM (fun m : Member => m.rule.evaluateActivation (R.ofKind m.kind) xs) = .ok acts := by
    intro xs a h
    unfold evaluateSelf at h
    rw [if_neg fun e => hne (List.length_eq_zero_iff.1 e)] at h
    cases ha : rules.mapM (fun m : Member => m.rule.evaluateActivation (R.ofKind m.kind) xs) with
    | error e => simp only [activations, ha, Except.map, bind, Except.bind] at h; cases h
    | ok acts => exact ⟨acts, rfl⟩
  obtain ⟨acts, g⟩ := some_acts h
  obtain ⟨acts', g'⟩ := some_acts h'
  obtain ⟨fs, rfl, rfl⟩ := activations_both hp g g'
  exact ⟨_, self_bits hne g h, self_bits hne g' h'⟩

/-! ## The criterion -/

/-- The criterion of a ruleset of classification rules, step by step -/
theorem calcCriterion_class_steps {R : RsEnv} {y : List Label} {xs : Xs} {w : Option WeightsArg} {kw : Rule.Kw} {s t : RuleSet}
    (hk : s.ruleType = some .classification) (hne : s.rules ≠ []) (h : calcCriterion R y (some xs) w kw s = (.ok (), t)) :
    ∃ l s1, predict R (some xs) w s = (.ok l, s1) ∧ (l = [] ∨ ∃ p a c, labelsOfCells l = .ok p ∧
      evaluateSelf R (some xs) s1.rules = .ok a ∧
      RFun.classificationCriterionVector (kw.criterionMethod.getD "success_rate") (a.getD []) p y = .ok c ∧
      t.criterion = match c with | some c => .num c | none => .none) := by
  have h0 : ¬ s.rules.length = 0 := fun e => hne (List.length_eq_zero_iff.1 e)
  unfold calcCriterion at h
  rw [Py.bind_ok (Py.get_run s)] at h
  simp only [if_neg h0, hk] at h
  obtain ⟨l, s1, hp, h⟩ := Py.bind_eq_ok h
  refine ⟨l, s1, hp, ?_⟩
  split at h
  · rename_i e
    exact .inl (List.length_eq_zero_iff.1 e)
  obtain ⟨p, s2, h1, h⟩ := Py.bind_eq_ok h
  obtain ⟨a, s3, h2, h⟩ := Py.bind_eq_ok h
  obtain ⟨c, s4, h3, h5⟩ := Py.bind_eq_ok h
  clear h
  have e1 := Local.ofExcept_ok h1
  have e3 := Local.ofExcept_ok h3
  rw [Py.ofExcept_run] at h1
  obtain rfl := (Prod.mk.inj h1).2
  unfold criterionActivation at h2
  simp only at h2
  rw [Py.bind_ok (Py.get_run _)] at h2
  obtain ⟨b, s5, h4, h2⟩ := Py.bind_eq_ok h2
  have e4 := Local.ofExcept_ok h4
  cases h2
  refine .inr ⟨p, b, c, e1, e4, e3, ?_⟩
  cases h5
  rfl

theorem vector_length {m : String} {a : List Nat} {p y : List Label} {c : Option Num}
    (h : RFun.classificationCriterionVector m a p y = .ok c) : p.length = a.length := by
  by_contra hne
  unfold RFun.classificationCriterionVector at h
  simp only [bind, Except.bind] at h
  split at h
  · cases h
  rw [if_pos hne] at h
  cases h

/-- What depends on the row only goes with the points. -/
theorem local_pairs_rows {α : Type} [Inhabited α] {xs xs' : Xs} {y y' : List Label} (h : SamePoints xs y xs' y') {l l' : List α}
    (hn : l.length = y.length) (hn' : l'.length = y'.length) (hl : ∀ (i j : Nat) r, (rowsOf xs)[i]? = some r → (rowsOf xs)[j]? = some r → Same i j l l)
    (hl' : ∀ (i j : Nat) r, (rowsOf xs)[i]? = some r → (rowsOf xs')[j]? = some r → Same i j l l') : SamePairs l y l' y' := by
  classical
  have hp := SamePoints.pairs h
  let g : List Num → α := fun r => if e : ∃ i : Nat, (rowsOf xs)[i]? = some r then (l[e.choose]?).getD default else default
  have e1 : l = (rowsOf xs).map g := by
    apply List.ext_getElem?
    intro i
    rw [List.getElem?_map]
    cases hi : (rowsOf xs)[i]? with
    | none =>
      rw [Option.map_none, List.getElem?_eq_none_iff]
      have := List.getElem?_eq_none_iff.1 hi
      rw [hn, ← hp.1]
      exact this
    | some r =>
      have e : ∃ i : Nat, (rowsOf xs)[i]? = some r := ⟨i, hi⟩
      obtain ⟨x, hx, hx'⟩ := hl i e.choose r hi e.choose_spec
      simp only [g, Option.map_some, dif_pos e, hx, hx', Option.getD_some]
  have e2 : l' = (rowsOf xs').map g := by
    apply List.ext_getElem?
    intro i
    rw [List.getElem?_map]
    cases hi : (rowsOf xs')[i]? with
    | none =>
      rw [Option.map_none, List.getElem?_eq_none_iff]
      have := List.getElem?_eq_none_iff.1 hi
      rw [hn', ← hp.2.1]
      exact this
    | some r =>
      have hm : r ∈ rowsOf xs := (SamePairs.left hp).mem_iff.2 (List.mem_of_getElem? hi)
      have e : ∃ i : Nat, (rowsOf xs)[i]? = some r := List.mem_iff_getElem?.1 hm
      obtain ⟨x, hx, hx'⟩ := hl' e.choose i r e.choose_spec hi
      simp only [g, Option.map_some, dif_pos e, hx, hx', Option.getD_some]
  have := SamePairs.map hp g (id : Label → Label)
  rwa [List.map_id, List.map_id, ← e1, ← e2] at this

theorem same_zip {α β : Type} {a a' : List α} {b b' : List β} {i j : Nat} (h : Same i j a a') (h' : Same i j b b') :
    Same i j (a.zip b) (a'.zip b') := by
  obtain ⟨x, h1, h2⟩ := h
  obtain ⟨z, h3, h4⟩ := h'
  exact ⟨(x, z), List.getElem?_zip_eq_some.2 ⟨h1, h3⟩, List.getElem?_zip_eq_some.2 ⟨h2, h4⟩⟩

/-- If the predictions are those of the points, so is the criterion. -/
theorem criterion_classes {R : RsEnv} {xs xs' : Xs} {y y' : List Label} (hp : SamePoints xs y xs' y') (h0 : xs.length ≠ 0)
    {w : Option WeightsArg} {kw : Rule.Kw} {s t t' : RuleSet} (hk : s.ruleType = some .classification) (hne : s.rules ≠ [])
    {l l' : List Cell} (hl : predict R (some xs) w s = (.ok l, s)) (hl' : predict R (some xs') w s = (.ok l', s))
    (hloc : ∀ i j, SamePoint xs i xs j → Same i j l l) (hloc' : ∀ i j, SamePoint xs i xs' j → Same i j l l')
    (h : calcCriterion R y (some xs) w kw s = (.ok (), t)) (h' : calcCriterion R y' (some xs') w kw s = (.ok (), t')) :
    t.criterion = t'.criterion := by
  obtain ⟨l1, s1, e, hc⟩ := calcCriterion_class_steps hk hne h
  obtain ⟨l2, s2, e', hc'⟩ := calcCriterion_class_steps hk hne h'
  rw [hl] at e
  rw [hl'] at e'
  cases e
  cases e'
  have hpairs := SamePoints.pairs hp
  have hrow : ∃ i j, SamePoint xs i xs' j := by
    cases hr : rowsOf xs with
    | nil => exact absurd (by rw [← rowsOf_length, hr]; rfl) h0
    | cons r rest =>
      have hm : r ∈ rowsOf xs' := (SamePairs.left hpairs).mem_iff.1 (by rw [hr]; exact List.mem_cons_self)
      obtain ⟨j, hj⟩ := List.mem_iff_getElem?.1 hm
      exact ⟨0, j, samePoint_of_rows hp (by rw [hr]; rfl) hj⟩
  obtain ⟨i, j, hij⟩ := hrow
  obtain ⟨x, hx, hx'⟩ := hloc' i j hij
  rcases hc with e | ⟨p, a, c, h1, h2, h3, h4⟩
  · rw [e] at hx; cases hx
  rcases hc' with e | ⟨p', a', c', h1', h2', h3', h4'⟩
  · rw [e] at hx'; cases hx'
  obtain ⟨f, rfl, rfl⟩ := self_both hp hne h2 h2'
  simp only [Option.getD_some] at h3 h3'
  have n1 : p.length = (bits xs f).length := vector_length h3
  have n1' : p'.length = (bits xs' f).length := vector_length h3'
  have n2 : (bits xs f).length = y.length := by rw [bits, List.length_map]; exact hpairs.1
  have n2' : (bits xs' f).length = y'.length := by rw [bits, List.length_map]; exact hpairs.2.1
  have n3 : p.length = l.length := mapM_length h1
  have n3' : p'.length = l'.length := mapM_length h1'
  have : Inhabited Cell := ⟨.frame⟩
  have : Inhabited Label := ⟨.num .nan⟩
  have hb : ∀ (xs' : Xs) (i j : Nat) r, (rowsOf xs)[i]? = some r → (rowsOf xs')[j]? = some r → Same i j (bits xs f) (bits xs' f) := by
    intro xs' i j r hi hj
    exact ⟨(f r).toNat, by rw [bits, List.getElem?_map, hi]; rfl, by rw [bits, List.getElem?_map, hj]; rfl⟩
  have hs := local_pairs_rows (l := (bits xs f).zip l) (l' := (bits xs' f).zip l') hp (by rw [List.length_zip]; omega)
    (by rw [List.length_zip]; omega)
    (fun i j r hi hj => same_zip (hb xs i j r hi hj) (hloc i j (samePoint_self hi hj)))
    (fun i j r hi hj => same_zip (hb xs' i j r hi hj) (hloc' i j (samePoint_of_rows hp hi hj)))
  have hq : SamePairs ((bits xs f).zip p) y ((bits xs' f).zip p') y' := by
    have := SamePairs.map hs (Prod.map id fun c : Cell =>
      (((match c with | .label l => .ok l | .frame => .error .typeError : Except Err Label)).toOption).getD default) (id : Label → Label)
    rw [List.map_id, List.map_id, ← List.zip_map_right, ← List.zip_map_right] at this
    rw [mapM_as_map h1, mapM_as_map h1']
    exact this
  rw [vector_order n1 n1' hq, h3'] at h3
  cases h3
  rw [h4, h4']

end Verif.RowOrder
