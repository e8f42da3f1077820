import Verif.VoteLemmas

/-!
# The stacked computations
-/

namespace Verif.Vote

open Verif Spec

theorem mapM_ok {α β} {f : α → Except Err β} {g : α → β} {l : List α} (h : ∀ a ∈ l, f a = .ok (g a)) :
    l.mapM f = .ok (l.map g) := by
  induction l with
  | nil => rfl
  | cons a l ih =>
    rw [List.mapM_cons, h a (by simp), ih fun b hb => h b (by simp [hb])]
    rfl

theorem dictOf_append {α} (acc l : List (String × α)) (h : ((acc ++ l).map (·.1)).Nodup) :
    l.foldl (fun acc p =>
      if acc.any (fun q => q.1 = p.1) then acc.map (fun q => if q.1 = p.1 then p else q) else acc ++ [p]) acc = acc ++ l := by
  induction l generalizing acc with
  | nil => simp
  | cons p l ih =>
    rw [List.foldl_cons, if_neg, ih]
    · simp
    · simpa using h
    · simp only [List.any_eq_true, decide_eq_true_eq, not_exists, not_and]
      intro q hq e
      rw [List.map_append, List.nodup_append] at h
      exact h.2.2 q.1 (List.mem_map_of_mem hq) p.1 (by simp) e

/-- A dictionary with different keys -/
theorem dictOf_nodup {α} {l : List (String × α)} (h : (l.map (·.1)).Nodup) : dictOf l = l := by
  have := dictOf_append [] l (by simpa using h)
  rw [List.nil_append] at this
  exact this

theorem lookup_map {α} {rules : List Rule} {name : Rule → String} (h : (rules.map name).Nodup) (f : Rule → α) {r : Rule}
    (hr : r ∈ rules) : lookup (rules.map fun r => (name r, f r)) (name r) = some (f r) := by
  unfold lookup
  induction rules with
  | nil => cases hr
  | cons a rules ih =>
    rw [List.map_cons, List.find?_cons]
    rcases List.mem_cons.1 hr with rfl | hr'
    · simp
    · rw [List.map_cons, List.nodup_cons] at h
      have : name a ≠ name r := fun e => h.1 (e ▸ List.mem_map_of_mem hr')
      simp only [decide_eq_true_eq, this, decide_false]
      exact ih h.2 hr'

theorem predictionVectors_map {α} {rules : List Rule} {name : Rule → String} (h : (rules.map name).Nodup)
    (cell : α → Nat → α) (act : Rule → List Nat) (lab : Rule → α) :
    predictionVectors cell (rules.map fun r => (name r, act r)) (rules.map fun r => (name r, lab r)) =
      rules.map fun r => (name r, (act r).map (cell (lab r))) := by
  unfold predictionVectors
  rw [List.filterMap_map]
  refine Eq.trans (List.filterMap_congr (g := fun r => some (name r, (act r).map (cell (lab r)))) fun r hr => ?_)
    (congrFun List.filterMap_eq_map _)
  simp only [Function.comp_apply]
  rw [lookup_map h lab hr]
  rfl

theorem rowsOf_map {α} (n : Nat) (rules : List Rule) (name : Rule → String) (g : Rule → Nat → α) :
    rowsOf n (rules.map fun r => (name r, (List.range n).map (g r))) = (List.range n).map fun i => rules.map fun r => g r i := by
  unfold rowsOf
  refine List.map_congr_left fun i hi => ?_
  rw [List.filterMap_map, ← List.filterMap_eq_map]
  refine List.filterMap_congr fun r _ => ?_
  simp [List.mem_range.1 hi]

/-- The rules which have a weight and are active somewhere -/
def heard (rules : List Rule) (wt : Rule → Rat) (on : Rule → Nat → Bool) (n : Nat) : List Rule :=
  rules.filter fun r => wt r ≠ 0 ∧ ∃ i ∈ List.range n, on r i = true

theorem initWeights_map {α} {S : SetEnv} {w : Weights} {rules : List Rule} {wt : Rule → Rat} (hw : WeightsAre S w rules wt)
    (hn : (rules.map fun r => S.condStr r.cond).Nodup) (isNaN : α → Bool) (n : Nat) (on : Rule → Nat → Bool)
    (q : Rule → Nat → α) (hq : ∀ r ∈ rules, ∀ i < n, on r i = true → isNaN (q r i) = false) :
    initWeights isNaN (rules.map fun r => (S.condStr r.cond, vec n (on r)))
        (rules.map fun r => (S.condStr r.cond, (List.range n).map (q r))) w =
      if heard rules wt on n = [] then .error .valueError
      else .ok ((heard rules wt on n).map fun r =>
        (S.condStr r.cond, (List.range n).map fun i => (q r i, if on r i then Num.fin (wt r) else .nan))) := by
  have hval : ∀ r ∈ rules, (vec n (on r)).map (cellWeight w (S.condStr r.cond)) =
      (List.range n).map fun i => if on r i = true ∧ wt r ≠ 0 then Num.fin (wt r) else .nan := by
    intro r hr
    unfold vec
    rw [List.map_map]
    refine List.map_congr_left fun i _ => ?_
    simp only [Function.comp_apply, cellWeight]
    rcases hw r hr with h | ⟨h0, h | h⟩
    · rw [h]
      cases ho : on r i
      · simp
      · by_cases h0 : wt r = 0
        · simp [h0, Num.mul, beq_fin]
        · simp [h0, Num.mul, beq_fin]
    · rw [h]; simp [h0]
    · rw [h]
      cases ho : on r i
      · simp
      · simp [h0, Num.mul, Num.beq, Num.le]
  have hmain : ∀ (l : List Rule), (∀ r ∈ l, r ∈ rules) → (l.map fun r => (S.condStr r.cond, vec n (on r))).filterMap
      (weighColumn isNaN (rules.map fun r => (S.condStr r.cond, (List.range n).map (q r))) w) =
      (heard l wt on n).map fun r =>
        (S.condStr r.cond, (List.range n).map fun i => (q r i, if on r i then Num.fin (wt r) else .nan)) := by
    intro l hl
    induction l with
    | nil => rfl
    | cons r l ih =>
      have hr := hl r (by simp)
      have ih := ih fun s hs => hl s (by simp [hs])
      by_cases hh : wt r ≠ 0 ∧ ∃ i ∈ List.range n, on r i = true
      · have hc : weighColumn isNaN (rules.map fun r => (S.condStr r.cond, (List.range n).map (q r))) w
            (S.condStr r.cond, vec n (on r)) =
            some (S.condStr r.cond, (List.range n).map fun i => (q r i, if on r i then Num.fin (wt r) else .nan)) := by
          unfold weighColumn
          simp only
          rw [lookup_map hn (fun r => (List.range n).map (q r)) hr]
          simp only
          rw [hval r hr, if_neg, zipWith_range]
          · refine congrArg some (Prod.ext rfl (List.map_congr_left fun i hi => Prod.ext rfl ?_))
            simp only
            cases ho : on r i with
            | false => simp
            | true => simp [hq r hr i (List.mem_range.1 hi) ho, hh.1]
          · obtain ⟨h0, i, hi, ho⟩ := hh
            simp only [List.all_eq_true, not_forall, List.mem_map]
            exact ⟨.fin (wt r), ⟨i, hi, by simp [ho, h0]⟩, by simp [Num.isNaN]⟩
        have : heard (r :: l) wt on n = r :: heard l wt on n := by
          unfold heard; rw [List.filter_cons_of_pos]; simpa using hh
        rw [this, List.map_cons, List.filterMap_cons, hc, ih]
        rfl
      · have hc : weighColumn isNaN (rules.map fun r => (S.condStr r.cond, (List.range n).map (q r))) w
            (S.condStr r.cond, vec n (on r)) = none := by
          unfold weighColumn
          simp only
          rw [lookup_map hn (fun r => (List.range n).map (q r)) hr]
          simp only
          rw [hval r hr, if_pos]
          simp only [List.all_eq_true, List.mem_map]
          rintro x ⟨i, hi, rfl⟩
          rw [if_neg]
          · rfl
          · rintro ⟨ho, h0⟩
            exact hh ⟨h0, i, hi, ho⟩
        have : heard (r :: l) wt on n = heard l wt on n := by
          unfold heard; rw [List.filter_cons_of_neg]; simpa using hh
        rw [this, List.map_cons, List.filterMap_cons, hc, ih]
  unfold initWeights
  simp only
  rw [hmain rules fun r hr => hr]
  simp only [List.length_map, List.length_eq_zero_iff]

theorem nansum_active (l : List Rule) (on : Rule → Nat → Bool) (f : Rule → Rat) (i : Nat) (g : Rule → Num)
    (hg : ∀ r ∈ l, g r = if on r i then .fin (f r) else .nan) : nansum (l.map g) = .fin (activeSum l on f i) := by
  unfold nansum activeSum
  rw [← RFun.sum_fin, List.map_map]
  congr 1
  induction l with
  | nil => rfl
  | cons r l ih =>
    have := ih fun s hs => hg s (by simp [hs])
    unfold Num.dropna at this ⊢
    rw [List.map_cons, hg r (by simp)]
    cases ho : on r i with
    | false =>
      rw [List.filter_cons_of_neg (by simp [Num.isNaN]), List.filter_cons_of_neg (by simp [ho])]
      exact this
    | true =>
      rw [List.filter_cons_of_pos (by simp [Num.isNaN]), List.filter_cons_of_pos (by simp [ho]), List.map_cons, this]
      rfl

theorem activeSum_heard {rules : List Rule} {wt : Rule → Rat} {on : Rule → Nat → Bool} {n : Nat} (f : Rule → Rat) {i : Nat}
    (hi : i < n) : activeSum (heard rules wt on n) on f i = activeSum (voters rules wt) on f i := by
  unfold activeSum heard voters
  rw [List.filter_filter, List.filter_filter]
  congr 2
  refine List.filter_congr fun r _ => ?_
  cases ho : on r i
  · simp
  · have : ∃ j < n, on r j = true := ⟨i, hi, ho⟩
    simp [this]

/-- The weighted combination of columns -/
theorem weightedRegressorStacked_eq {S : SetEnv} {w : Weights} {rules : List Rule} {wt p : Rule → Rat} {n : Nat}
    {on : Rule → Nat → Bool} (hw : WeightsAre S w rules wt) (hn : (rules.map fun r => S.condStr r.cond).Nodup)
    (hh : heard rules wt on n ≠ []) :
    weightedRegressorStacked n (rules.map fun r => (S.condStr r.cond, vec n (on r)))
        (rules.map fun r => (S.condStr r.cond, (List.range n).map fun i => if on r i then Num.fin (p r) else .nan)) w =
      .ok (table n fun i =>
        Num.div (.fin (activeSum (voters rules wt) on (fun r => p r * wt r) i)) (.fin (activeSum (voters rules wt) on wt i))) := by
  unfold weightedRegressorStacked
  rw [initWeights_map hw hn Num.isNaN n on (fun r i => if on r i then Num.fin (p r) else .nan)
    (fun r _ i _ ho => by simp [ho, Num.isNaN]), if_neg hh]
  simp only [bind, Except.bind]
  rw [rowsOf_map, List.map_map]
  refine congrArg _ (List.map_congr_left fun i hi => ?_)
  simp only [Function.comp_apply, List.map_map]
  rw [nansum_active _ on (fun r => p r * wt r) i, nansum_active _ on wt i, activeSum_heard _ (List.mem_range.1 hi),
    activeSum_heard _ (List.mem_range.1 hi)]
  · intro r _; rfl
  · intro r _
    simp only [Function.comp_apply]
    cases on r i <;> simp [Num.mul]

theorem nanmean_active (l : List Rule) (on : Rule → Nat → Bool) (p : Rule → Rat) (i : Nat) :
    Num.nanmean (l.map fun r => if on r i then Num.fin (p r) else .nan) =
      Num.div (.fin (activeSum l on p i)) (.fin (activeCount l on i)) := by
  unfold Num.nanmean Num.mean
  have h1 := nansum_active l on p i (fun r => if on r i then Num.fin (p r) else .nan) fun _ _ => rfl
  unfold nansum at h1
  rw [h1]
  congr 3
  unfold activeCount Num.dropna
  induction l with
  | nil => rfl
  | cons r l ih =>
    rw [List.map_cons]
    cases ho : on r i with
    | false =>
      rw [List.filter_cons_of_neg (by simp [Num.isNaN]), List.filter_cons_of_neg (by simp [ho])]
      exact ih (by
        have := nansum_active l on p i (fun r => if on r i then Num.fin (p r) else .nan) fun _ _ => rfl
        exact this)
    | true =>
      rw [List.filter_cons_of_pos (by simp [Num.isNaN]), List.filter_cons_of_pos (by simp [ho]), List.length_cons,
        List.length_cons]
      exact congrArg _ (ih (by
        have := nansum_active l on p i (fun r => if on r i then Num.fin (p r) else .nan) fun _ _ => rfl
        exact this))

/-- What a ruleset reads: stacked activations of rules with different names -/
theorem labelsOf_eq {S : SetEnv} {rules : List Rule} (hn : (rules.map fun r => S.condStr r.cond).Nodup) {lab : Rule → Label}
    (hp : ∀ r ∈ rules, r.getPrediction S.env = .ok (some (lab r))) :
    labelsOf S rules = .ok (rules.map fun r => (S.condStr r.cond, lab r)) := by
  unfold labelsOf
  rw [mapM_ok (g := fun r => (S.condStr r.cond, lab r)) fun r hr => by rw [hp r hr]; rfl]
  simp only [Except.map]
  rw [dictOf_nodup (by simpa [List.map_map, Function.comp_def] using hn)]

theorem height_map (rules : List Rule) (hne : rules ≠ []) (name : Rule → String) (n : Nat) (on : Rule → Nat → Bool) :
    height (rules.map fun r => (name r, vec n (on r))) = n := by
  match rules, hne with
  | r :: rules, _ => simp [height, vec_length]

theorem stackedFrom_eq {S : SetEnv} {xs : Xs} {rules : List Rule} {n : Nat} {on : Rule → Nat → Bool}
    (hn : (rules.map fun r => S.condStr r.cond).Nodup)
    (ha : ∀ r ∈ rules, activationOf S.env (some xs) r = .ok (some (vec n (on r)))) :
    stackedFrom S xs rules = .ok (rules.map fun r => (S.condStr r.cond, vec n (on r))) := by
  have hev : ∀ r ∈ rules, r.evaluateActivation S.env xs = .ok (vec n (on r)) := by
    intro r hr
    have := ha r hr
    unfold activationOf at this
    simp only at this
    cases h : r.evaluateActivation S.env xs with
    | error e => rw [h] at this; cases this
    | ok v => rw [h] at this; cases this; rfl
  unfold stackedFrom
  rw [mapM_ok (g := fun r => (S.condStr r.cond, vec n (on r))) fun r hr => by rw [hev r hr]; rfl]
  simp only [bind, Except.bind, frameOf]
  rw [dictOf_nodup (by simpa [List.map_map, Function.comp_def] using hn)]
  cases rules with
  | nil => rfl
  | cons r rules =>
    rw [List.map_cons]
    simp only
    rw [if_pos]
    simp [vec_length]

theorem onlyNumbers_map (rules : List Rule) (name : Rule → String) (p : Rule → Num) :
    onlyNumbers (rules.map fun r => (name r, Label.num (p r))) = .ok (rules.map fun r => (name r, p r)) := by
  unfold onlyNumbers
  induction rules with
  | nil => rfl
  | cons r rules ih =>
    rw [List.map_cons, List.mapM_cons, ih]
    rfl

theorem cellNum_vec (n : Nat) (on : Nat → Bool) (p : Rat) :
    (vec n on).map (cellNum (.fin p)) = (List.range n).map fun i => if on i then Num.fin p else .nan := by
  unfold vec
  rw [List.map_map]
  refine List.map_congr_left fun i _ => ?_
  cases h : on i <;> simp [h, cellNum, Num.mul]

/-- The stacked weighted prediction -/
theorem predictStacked_weighted {S : SetEnv} {w : Weights} {rules : List Rule} {wt p : Rule → Rat} {n : Nat}
    {on : Rule → Nat → Bool} (hk : S.env.kind = .regression) (hpos : 0 < n)
    (hp : ∀ r ∈ rules, r.getPrediction S.env = .ok (some (.num (.fin (p r))))) (hw : WeightsAre S w rules wt)
    (hn : (rules.map fun r => S.condStr r.cond).Nodup) (hh : heard rules wt on n ≠ []) :
    predictStacked S rules (rules.map fun r => (S.condStr r.cond, vec n (on r))) (some w) =
      .ok (cellsOf (table n fun i =>
        Num.div (.fin (activeSum (voters rules wt) on (fun r => p r * wt r) i)) (.fin (activeSum (voters rules wt) on wt i)))) := by
  have hne : rules ≠ [] := by rintro rfl; exact hh rfl
  unfold predictStacked
  rw [labelsOf_eq hn hp]
  simp only [bind, Except.bind]
  rw [height_map rules hne, if_neg (by omega), hk]
  simp only
  rw [onlyNumbers_map]
  simp only
  rw [predictionVectors_map hn]
  simp only [cellNum_vec]
  rw [weightedRegressorStacked_eq hw hn hh]
  rfl

/-- The stacked unweighted prediction -/
theorem predictStacked_equal {S : SetEnv} {rules : List Rule} {p : Rule → Rat} {n : Nat}
    {on : Rule → Nat → Bool} (hk : S.env.kind = .regression) (hpos : 0 < n) (hne : rules ≠ [])
    (hp : ∀ r ∈ rules, r.getPrediction S.env = .ok (some (.num (.fin (p r)))))
    (hn : (rules.map fun r => S.condStr r.cond).Nodup) :
    predictStacked S rules (rules.map fun r => (S.condStr r.cond, vec n (on r))) none =
      .ok (cellsOf (table n fun i => Num.div (.fin (activeSum rules on p i)) (.fin (activeCount rules on i)))) := by
  unfold predictStacked
  rw [labelsOf_eq hn hp]
  simp only [bind, Except.bind]
  rw [height_map rules hne, if_neg (by omega), hk]
  simp only
  rw [onlyNumbers_map]
  simp only
  rw [predictionVectors_map hn]
  simp only [cellNum_vec]
  unfold equalRegressorStacked
  rw [rowsOf_map, List.map_map]
  refine congrArg (fun l => Except.ok (cellsOf l)) (List.map_congr_left fun i _ => ?_)
  exact nanmean_active rules on p i

end Verif.Vote
