import Verif.ClassVoteLemmas

/-!
# Class votes in the stacked computation
-/

namespace Verif.Vote

open Verif Spec RFun

/-- The predictions at point `i` -/
def classRow (rules : List Rule) (on : Rule → Nat → Bool) (c : Rule → Label) (i : Nat) : List Label :=
  rules.map fun r => if on r i then c r else Label.num .nan

theorem winner_wins {rules : List Rule} {on : Rule → Nat → Bool} {c : Rule → Label} (hc : ∀ r ∈ rules, IsClass (c r)) (i : Nat)
    (k : Label) : winner (classRow rules on c i) = some k ↔ Wins rules on c (fun _ => 1) k i := by
  rw [winner_eq]
  exact modes_wins hc i k

theorem equalClassifierStacked_eq {rules : List Rule} (name : Rule → String) (n : Nat) (on : Rule → Nat → Bool)
    (c : Rule → Label) (hnan : ∀ r ∈ rules, c r ≠ .text "nan") :
    equalClassifierStacked n (rules.map fun r => (name r, (List.range n).map fun i => if on r i then c r else Label.num .nan)) =
      voteRows ((List.range n).map (classRow rules on c)) := by
  unfold equalClassifierStacked
  rw [rowsOf_map]
  simp only
  split
  · rw [List.map_map]
    refine congrArg voteRows (List.map_congr_left fun i _ => ?_)
    simp only [Function.comp_apply, List.map_map, classRow]
    refine List.map_congr_left fun r hr => ?_
    simp only [Function.comp_apply]
    split
    · have := hnan r hr
      cases h : c r with
      | num x => rfl
      | text s =>
        rw [h] at this
        unfold textNaN
        simp only
        rw [if_neg fun e => this (congrArg _ e)]
    · rfl
  · rfl

/-- The outcome of the vote when at least two points are decided -/
theorem voteRows_wins {rules : List Rule} {n : Nat} {on : Rule → Nat → Bool} {c : Rule → Label}
    (hc : ∀ r ∈ rules, IsClass (c r)) {i j : Nat} (hi : i < n) (hj : j < n) (hij : i ≠ j) {a b : Label}
    (ha : Wins rules on c (fun _ => 1) a i) (hb : Wins rules on c (fun _ => 1) b j) :
    voteRows ((List.range n).map (classRow rules on c)) =
      (List.range n).map fun i => .label ((winner (classRow rules on c i)).getD (.num .nan)) := by
  rw [voteRows_two (i := i) (j := j) hij (ri := classRow rules on c i) (rj := classRow rules on c j) (by simp [hi]) (by simp [hj])
    (by rw [(winner_wins hc i a).2 ha]; rfl) (by rw [(winner_wins hc j b).2 hb]; rfl), List.map_map]
  rfl

/-- One decided point: its class goes to the first point. -/
theorem voteRows_one {rules : List Rule} {n : Nat} {on : Rule → Nat → Bool} {c : Rule → Label}
    (hc : ∀ r ∈ rules, IsClass (c r)) {i : Nat} (hi : i < n) {a : Label} (ha : Wins rules on c (fun _ => 1) a i)
    (ho : ∀ j < n, j ≠ i → ∀ b, ¬ Wins rules on c (fun _ => 1) b j) :
    voteRows ((List.range n).map (classRow rules on c)) =
      (List.range n).map fun j => .label (if j = 0 then a else .num .nan) := by
  have hf : (((List.range n).map (classRow rules on c)).map winner).filterMap id = [a] := by
    rw [List.map_map, List.filterMap_map]
    have hw : ∀ j < n, j ≠ i → winner (classRow rules on c j) = none := by
      intro j hj hne
      by_contra h
      obtain ⟨b, hb⟩ := Option.ne_none_iff_exists'.1 h
      exact ho j hj hne b ((winner_wins hc j b).1 hb)
    have hi' := (winner_wins hc i a).2 ha
    obtain ⟨m, rfl⟩ : ∃ m, n = i + (m + 1) := ⟨n - i - 1, by omega⟩
    rw [List.range_add, List.filterMap_append, List.range_succ_eq_map, List.map_cons, List.filterMap_cons_some (b := a)]
    · rw [List.filterMap_eq_nil_iff.2, List.filterMap_eq_nil_iff.2]
      · rfl
      · intro j hj
        simp only [List.mem_map, List.mem_range] at hj
        obtain ⟨_, ⟨k, hk, rfl⟩, rfl⟩ := hj
        exact hw _ (by omega) (by omega)
      · intro j hj
        have := List.mem_range.1 hj
        exact hw _ (by omega) (by omega)
    · exact hi'
  unfold voteRows
  simp only
  rw [hf]
  simp only [List.length_map, List.length_range]
  refine List.map_congr_left fun j _ => ?_
  split <;> rfl

/-- No decided point: the first one is a table. -/
theorem voteRows_zero {rules : List Rule} {n : Nat} {on : Rule → Nat → Bool} {c : Rule → Label}
    (hc : ∀ r ∈ rules, IsClass (c r)) (ho : ∀ j < n, ∀ b, ¬ Wins rules on c (fun _ => 1) b j) :
    voteRows ((List.range n).map (classRow rules on c)) =
      (List.range n).map fun j => if j = 0 then .frame else .label (.num .nan) := by
  have hf : (((List.range n).map (classRow rules on c)).map winner).filterMap id = [] := by
    rw [List.map_map, List.filterMap_map]
    refine List.filterMap_eq_nil_iff.2 fun j hj => ?_
    simp only [Function.comp_apply, id]
    by_contra h
    obtain ⟨b, hb⟩ := Option.ne_none_iff_exists'.1 h
    exact ho j (List.mem_range.1 hj) b ((winner_wins hc j b).1 hb)
  unfold voteRows
  simp only
  rw [hf]
  simp

theorem oneType_same {rules : List Rule} {c : Rule → Label} (name : Rule → String) (h : SameType (rules.map c)) :
    oneType (rules.map fun r => (name r, c r)) = true := by
  unfold oneType
  rw [Bool.or_eq_true]
  rcases h with h | h
  · refine .inl (List.all_eq_true.2 fun p hp => ?_)
    obtain ⟨r, hr, rfl⟩ := List.mem_map.1 hp
    obtain ⟨q, hq⟩ := h (c r) (List.mem_map_of_mem hr)
    simp only [hq]
  · refine .inr (List.all_eq_true.2 fun p hp => ?_)
    obtain ⟨r, hr, rfl⟩ := List.mem_map.1 hp
    obtain ⟨q, hq⟩ := h (c r) (List.mem_map_of_mem hr)
    simp only [hq]

theorem cellLabel_vec (n : Nat) (on : Nat → Bool) {k : Label} (hk : IsClass k) :
    (vec n on).map (cellLabel k) = (List.range n).map fun i => if on i then k else Label.num .nan := by
  unfold vec
  rw [List.map_map]
  refine List.map_congr_left fun i _ => ?_
  rcases hk with ⟨q, rfl⟩ | ⟨s, rfl⟩ <;> cases h : on i <;> simp [h, cellLabel, cellNum, cellText, Num.mul]

/-- The stacked unweighted vote -/
theorem predictStacked_vote {S : SetEnv} {rules : List Rule} {c : Rule → Label} {n : Nat}
    {on : Rule → Nat → Bool} (hk : S.env.kind = .classification) (hpos : 0 < n) (hne : rules ≠ [])
    (hp : ∀ r ∈ rules, r.getPrediction S.env = .ok (some (c r))) (hc : ∀ r ∈ rules, IsClass (c r))
    (hs : SameType (rules.map c)) (hnan : ∀ r ∈ rules, c r ≠ .text "nan")
    (hn : (rules.map fun r => S.condStr r.cond).Nodup) :
    predictStacked S rules (rules.map fun r => (S.condStr r.cond, vec n (on r))) none =
      .ok (voteRows ((List.range n).map (classRow rules on c))) := by
  unfold predictStacked
  rw [labelsOf_eq hn hp]
  simp only [bind, Except.bind]
  rw [height_map rules hne, if_neg (by omega), hk]
  simp only
  rw [oneType_same _ hs]
  simp only [Bool.not_true, Bool.false_eq_true, if_false]
  rw [predictionVectors_map hn, List.map_congr_left fun r hr => by rw [cellLabel_vec n (on r) (hc r hr)],
    equalClassifierStacked_eq _ n on c hnan]

open Classical in
/-- Rule `r` is active at point `i` and no rule active there has a greater weight. -/
noncomputable def heaviest (rules : List Rule) (wt : Rule → Rat) (on : Rule → Nat → Bool) (r : Rule) (i : Nat) : Bool :=
  decide (wt r ≠ 0 ∧ on r i = true ∧ ∀ s ∈ rules, wt s ≠ 0 → on s i = true → wt s ≤ wt r)

theorem nanmax_active (l : List Rule) (on : Rule → Nat → Bool) (f : Rule → Rat) (i : Nat) :
    (nanmax (l.map fun r => if on r i then Num.fin (f r) else .nan) = .nan ∧ ∀ r ∈ l, on r i = false) ∨
    ∃ s ∈ l, on s i = true ∧ nanmax (l.map fun r => if on r i then Num.fin (f r) else .nan) = .fin (f s) ∧
      ∀ r ∈ l, on r i = true → f r ≤ f s := by
  have hd : Num.dropna (l.map fun r => if on r i then Num.fin (f r) else .nan) =
      ((l.filter fun r => on r i).map f).map .fin := by
    unfold Num.dropna
    induction l with
    | nil => rfl
    | cons r l ih =>
      rw [List.map_cons]
      cases ho : on r i with
      | false =>
        rw [List.filter_cons_of_neg (by simp [Num.isNaN]), List.filter_cons_of_neg (by simp [ho])]
        exact ih
      | true =>
        rw [List.filter_cons_of_pos (by simp [Num.isNaN]), List.filter_cons_of_pos (by simp [ho]), List.map_cons, List.map_cons, ih]
        rfl
  have hsame : nanmax (l.map fun r => if on r i then Num.fin (f r) else .nan) =
      nanmax (((l.filter fun r => on r i).map f).map .fin) := by
    unfold nanmax
    rw [hd, dropna_fin]
  rw [hsame]
  by_cases he : l.filter (fun r => on r i) = []
  · refine .inl ⟨by rw [he]; rfl, fun r hr => ?_⟩
    have := List.filter_eq_nil_iff.1 he r hr
    simpa using this
  · obtain ⟨m, hm, h1, h2⟩ := nanmax_fin (l := (l.filter fun r => on r i).map f) (by simpa using he)
    obtain ⟨s, hs, rfl⟩ := List.mem_map.1 hm
    rw [List.mem_filter] at hs
    exact .inr ⟨s, hs.1, hs.2, h1, fun r hr ho => h2 _ (List.mem_map_of_mem (List.mem_filter.2 ⟨hr, ho⟩))⟩

theorem nan_beq (x : Num) : x.beq .nan = false := by cases x <;> rfl

theorem nan_beq' (x : Num) : Num.nan.beq x = false := by cases x <;> rfl

/-- What remains of a rule at a point: its prediction if no active rule is heavier -/
theorem mask_cell {rules : List Rule} {wt : Rule → Rat} {on : Rule → Nat → Bool} {n i : Nat} (hi : i < n) {r : Rule}
    (hr : r ∈ heard rules wt on n) (k : Label) :
    (if (if on r i then Num.fin (wt r) else .nan).beq
        (nanmax ((heard rules wt on n).map fun r => if on r i then Num.fin (wt r) else .nan))
      then (if on r i then k else Label.num .nan) else Label.num .nan) =
    if heaviest rules wt on r i then k else Label.num .nan := by
  have hmem : ∀ s, s ∈ heard rules wt on n ∧ on s i = true ↔ s ∈ rules ∧ wt s ≠ 0 ∧ on s i = true := by
    intro s
    unfold heard
    rw [List.mem_filter]
    constructor
    · rintro ⟨⟨h1, h2⟩, h3⟩
      exact ⟨h1, (by simpa using h2 : _ ∧ _).1, h3⟩
    · rintro ⟨h1, h2, h3⟩
      refine ⟨⟨h1, ?_⟩, h3⟩
      simp only [decide_eq_true_eq]
      exact ⟨h2, i, List.mem_range.2 hi, h3⟩
  cases ho : on r i with
  | false =>
    have : heaviest rules wt on r i = false := by simp [heaviest, ho]
    rw [this]
    simp
  | true =>
    have hr0 := ((hmem r).1 ⟨hr, ho⟩).2.1
    rcases nanmax_active (heard rules wt on n) on wt i with ⟨_, h⟩ | ⟨s, hs, hos, h1, h2⟩
    · rw [h r hr] at ho; cases ho
    · rw [h1]
      simp only [if_true, beq_fin, decide_eq_true_eq]
      have hiff : wt r = wt s ↔ heaviest rules wt on r i = true := by
        unfold heaviest
        rw [decide_eq_true_eq]
        constructor
        · intro e
          refine ⟨hr0, ho, fun t ht h0 hot => ?_⟩
          rw [e]
          exact h2 t ((hmem t).2 ⟨ht, h0, hot⟩).1 hot
        · rintro ⟨_, _, h⟩
          have := (hmem s).1 ⟨hs, hos⟩
          exact le_antisymm (h2 r hr ho) (h s this.1 this.2.1 hos)
      by_cases e : wt r = wt s
      · rw [if_pos e, if_pos (hiff.1 e)]
      · rw [if_neg e, if_neg fun h => e (hiff.2 h)]

theorem heard_mem {rules : List Rule} {wt : Rule → Rat} {on : Rule → Nat → Bool} {n : Nat} {r : Rule}
    (h : r ∈ heard rules wt on n) : r ∈ rules := List.mem_of_mem_filter h

/-- Rules which are not heard do not change the rows' winners. -/
theorem wins_heard {rules : List Rule} {wt : Rule → Rat} {on : Rule → Nat → Bool} {n i : Nat} (hi : i < n) (c : Rule → Label)
    (k : Label) :
    Wins (heard rules wt on n) (heaviest rules wt on) c (fun _ => 1) k i ↔ Wins rules (heaviest rules wt on) c (fun _ => 1) k i := by
  have : ∀ k, votes (heard rules wt on n) (heaviest rules wt on) c (fun _ => 1) k i =
      votes rules (heaviest rules wt on) c (fun _ => 1) k i := by
    intro k
    unfold votes heard
    rw [List.filter_filter]
    congr 2
    refine List.filter_congr fun r hr => ?_
    cases hh : heaviest rules wt on r i with
    | false => simp
    | true =>
      have := hh
      unfold heaviest at this
      rw [decide_eq_true_eq] at this
      have hx : ∃ j < n, on r j = true := ⟨i, hi, this.2.1⟩
      simp [this.1, hx]
  unfold Wins
  simp only [this]

/-- The stacked weighted vote is the vote of the heaviest active rules. -/
theorem predictStacked_heaviest {S : SetEnv} {w : Weights} {rules : List Rule} {c : Rule → Label} {wt : Rule → Rat} {n : Nat}
    {on : Rule → Nat → Bool} (hk : S.env.kind = .classification) (hpos : 0 < n)
    (hp : ∀ r ∈ rules, r.getPrediction S.env = .ok (some (c r))) (hc : ∀ r ∈ rules, IsClass (c r))
    (hs : SameType (rules.map c)) (hnan : ∀ r ∈ rules, c r ≠ .text "nan") (hw : WeightsAre S w rules wt)
    (hn : (rules.map fun r => S.condStr r.cond).Nodup) (hh : heard rules wt on n ≠ []) :
    predictStacked S rules (rules.map fun r => (S.condStr r.cond, vec n (on r))) (some w) =
      .ok (voteRows ((List.range n).map (classRow (heard rules wt on n) (heaviest rules wt on) c))) := by
  have hne : rules ≠ [] := by rintro rfl; exact hh rfl
  unfold predictStacked
  rw [labelsOf_eq hn hp]
  simp only [bind, Except.bind]
  rw [height_map rules hne, if_neg (by omega), hk]
  simp only
  rw [oneType_same _ hs]
  simp only [Bool.not_true, Bool.false_eq_true, if_false]
  have hcell : (rules.map fun r => (S.condStr r.cond, (vec n (on r)).map (cellLabel (c r)))) =
      rules.map fun r => (S.condStr r.cond, (List.range n).map fun i => if on r i then c r else Label.num .nan) :=
    List.map_congr_left fun r hr => by rw [cellLabel_vec n (on r) (hc r hr)]
  rw [predictionVectors_map hn, hcell]
  unfold weightedClassifierStacked
  rw [initWeights_map hw hn Label.isNaN n on (fun r i => if on r i then c r else Label.num .nan)
    (fun r hr i _ ho => by rw [if_pos ho]; exact isClass_not_nan (hc r hr)), if_neg hh]
  simp only [bind, Except.bind]
  rw [rowsOf_map, List.map_map]
  rw [← equalClassifierStacked_eq (fun r => S.condStr r.cond) n (heaviest rules wt on) c fun r hr => hnan r (heard_mem hr)]
  refine congrArg (fun l => Except.ok (equalClassifierStacked n l)) ?_
  rw [List.map_map]
  refine List.map_congr_left fun r hr => ?_
  simp only [Function.comp_apply]
  rw [zipWith_range]
  refine congrArg _ (List.map_congr_left fun i hi => ?_)
  simp only [List.map_map, Function.comp_def]
  exact mask_cell (List.mem_range.1 hi) hr (c r)

end Verif.Vote
