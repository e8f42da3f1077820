import Verif.WeightRatioLemmas

/-!
# Lemmas on equal weights with stacked activations
-/

namespace Verif.WeightRatio

open Verif Verif.Spec Vote

variable {α : Type}

/-- Keys survive in a dictionary. -/
theorem dict_keys {β : Type} (l : List (String × β)) : ∀ (acc : List (String × β)) (key : String),
    (key ∈ acc.map (·.1) ∨ key ∈ l.map (·.1)) →
    key ∈ (l.foldl (fun acc p =>
      if acc.any (fun q => q.1 = p.1) then acc.map (fun q => if q.1 = p.1 then p else q) else acc ++ [p]) acc).map (·.1) := by
  induction l with
  | nil =>
    intro acc key h
    simpa using h
  | cons p l ih =>
    intro acc key h
    rw [List.foldl_cons]
    apply ih
    by_cases ha : acc.any (fun q => decide (q.1 = p.1)) = true
    · rw [if_pos ha]
      have e : (acc.map fun q => if q.1 = p.1 then p else q).map (·.1) = acc.map (·.1) := by
        rw [List.map_map]
        refine List.map_congr_left fun q _ => ?_
        show (if q.1 = p.1 then p else q).1 = q.1
        split
        · rename_i hq; exact hq.symm
        · rfl
      rw [e]
      rcases h with h | h
      · exact .inl h
      · rw [List.map_cons, List.mem_cons] at h
        rcases h with h | h
        · left
          obtain ⟨q, hq, hk⟩ := List.any_eq_true.1 ha
          rw [h, ← of_decide_eq_true hk]
          exact List.mem_map.2 ⟨q, hq, rfl⟩
        · exact .inr h
    · rw [if_neg ha]
      rcases h with h | h
      · left
        rw [List.map_append]
        exact List.mem_append_left _ h
      · rw [List.map_cons, List.mem_cons] at h
        rcases h with h | h
        · left
          rw [List.map_append, h]
          exact List.mem_append_right _ (by simp)
        · exact .inr h

theorem lookup_of_key {β : Type} {d : List (String × β)} {key : String} (h : key ∈ d.map (·.1)) : ∃ x, lookup d key = some x := by
  unfold lookup
  obtain ⟨q, hq, rfl⟩ := List.mem_map.1 h
  cases hf : d.find? fun p => p.1 = q.1 with
  | none => exact absurd (List.find?_eq_none.1 hf q hq) (by simp)
  | some p => exact ⟨p.2, rfl⟩

theorem labelsOf_keys {S : SetEnv} {rules : List Rule} {d : List (String × Label)} (h : labelsOf S rules = .ok d) {r : Rule}
    (hr : r ∈ rules) : S.condStr r.cond ∈ d.map (·.1) := by
  unfold labelsOf at h
  cases hm : rules.mapM (fun r : Rule => (r.getPrediction S.env).map fun p => (S.condStr r.cond, p.getD (.num .nan))) with
  | error e => rw [hm] at h; cases h
  | ok l =>
    rw [hm] at h
    cases h
    refine dict_keys l [] _ (.inr ?_)
    clear * - hm hr
    induction rules generalizing l with
    | nil => cases hr
    | cons r' rules ih =>
      rw [List.mapM_cons] at hm
      cases hp : r'.getPrediction S.env with
      | error e => rw [hp] at hm; cases hm
      | ok p =>
        rw [hp] at hm
        simp only [Except.map, bind, Except.bind] at hm
        cases hrest : rules.mapM (fun r : Rule => (r.getPrediction S.env).map fun p => (S.condStr r.cond, p.getD (.num .nan))) with
        | error e =>
          simp only [Except.map] at hrest
          rw [hrest] at hm
          cases hm
        | ok l' =>
          have hrest' := hrest
          simp only [Except.map] at hrest
          rw [hrest] at hm
          cases hm
          rw [List.map_cons, List.mem_cons]
          rcases List.mem_cons.1 hr with rfl | hr
          · exact .inl rfl
          · exact .inr (ih hr l' hrest')

theorem onlyNumbers_keys {l : List (String × Label)} {p : List (String × Num)} (h : onlyNumbers l = .ok p) :
    p.map (·.1) = l.map (·.1) := by
  unfold onlyNumbers at h
  induction l generalizing p with
  | nil => cases h; rfl
  | cons q l ih =>
    rw [List.mapM_cons] at h
    obtain ⟨n, x⟩ := q
    cases x with
    | text s => cases h
    | num x =>
      simp only [bind, Except.bind] at h
      split at h
      · cases h
      · rename_i l' hl
        cases h
        rw [List.map_cons, List.map_cons, ih hl]

/-- Columns of 0 and 1, none of zeros only, with different names -/
structure Plain (acts : Columns Nat) : Prop where
  names : (acts.map (·.1)).Nodup
  binary : ∀ q ∈ acts, ∀ k ∈ q.2, k ≤ 1
  active : ∀ q ∈ acts, 1 ∈ q.2
  rows : ∀ q ∈ acts, q.2.length = height acts

/-- A prediction with its weight -/
def cellPair (isNaN : α → Bool) (cell : α → Nat → α) (q : α) (k : Nat) : α × Num :=
  (cell q k, if k = 0 then .nan else if isNaN (cell q k) then .nan else .fin 1)

theorem lookup_vectors {cell : α → Nat → α} {p : List (String × α)} : ∀ {acts : Columns Nat} (_ : (acts.map (·.1)).Nodup)
    {c : String × List Nat} (_ : c ∈ acts), lookup (predictionVectors cell acts p) c.1 = (lookup p c.1).map fun q => c.2.map (cell q)
  | [], _, c, hc => by cases hc
  | d :: acts, hn, c, hc => by
    rw [List.map_cons, List.nodup_cons] at hn
    unfold predictionVectors
    rcases List.mem_cons.1 hc with rfl | hc
    · cases hl : lookup p c.1 with
      | none =>
        rw [List.filterMap_cons_none (by rw [hl]; rfl)]
        rw [Option.map_none]
        show Option.map _ _ = none
        rw [Option.map_eq_none_iff]
        refine List.find?_eq_none.2 fun x hx => ?_
        obtain ⟨e, he, hx⟩ := List.mem_filterMap.1 hx
        cases hle : lookup p e.1 with
        | none => rw [hle] at hx; cases hx
        | some q =>
          rw [hle] at hx
          cases hx
          simp only [decide_eq_true_eq]
          intro hee
          exact hn.1 (List.mem_map.2 ⟨e, he, hee⟩)
      | some q =>
        rw [List.filterMap_cons_some (b := (c.1, c.2.map (cell q))) (by rw [hl]; rfl)]
        unfold lookup
        rw [List.find?_cons_of_pos (by simp)]
        rfl
    · have hne : ¬ d.1 = c.1 := by
        intro e
        exact hn.1 (List.mem_map.2 ⟨c, hc, e.symm⟩)
      have ih := lookup_vectors (cell := cell) (p := p) hn.2 hc
      cases hl : lookup p d.1 with
      | none =>
        rw [List.filterMap_cons_none (by rw [hl]; rfl)]
        exact ih
      | some q =>
        rw [List.filterMap_cons_some (b := (d.1, d.2.map (cell q))) (by rw [hl]; rfl)]
        unfold lookup at ih ⊢
        rw [List.find?_cons_of_neg (by simpa using hne)]
        exact ih

theorem cellWeight_one {n : String} {w : Weights} (hw : w n = some (.fin 1)) {k : Nat} (hk : k ≤ 1) :
    cellWeight w n k = if k = 0 then .nan else .fin 1 := by
  unfold cellWeight
  rw [hw]
  have : k = 0 ∨ k = 1 := by omega
  rcases this with rfl | rfl
  · rfl
  · decide +kernel

theorem weigh_one {isNaN : α → Bool} {cell : α → Nat → α} {p : List (String × α)} {w : Weights} {acts : Columns Nat}
    (h : Plain acts) {c : String × List Nat} (hc : c ∈ acts) (hw : w c.1 = some (.fin 1)) :
    weighColumn isNaN (predictionVectors cell acts p) w c =
      (lookup p c.1).map fun q => (c.1, c.2.map (cellPair isNaN cell q)) := by
  unfold weighColumn
  rw [lookup_vectors h.names hc]
  cases lookup p c.1 with
  | none => rfl
  | some q =>
    simp only [Option.map_some]
    have e : c.2.map (cellWeight w c.1) = c.2.map fun k => if k = 0 then Num.nan else .fin 1 :=
      List.map_congr_left fun k hk => cellWeight_one hw (h.binary c hc k hk)
    rw [e]
    have hall : ¬ (c.2.map fun k => if k = 0 then Num.nan else Num.fin 1).all Num.isNaN = true := by
      intro ha
      have := List.all_eq_true.1 ha (.fin 1) (List.mem_map.2 ⟨1, h.active c hc, rfl⟩)
      cases this
    rw [if_neg hall]
    congr 2
    rw [List.zipWith_map]
    apply List.ext_getElem
    · simp
    · intro i h1 h2
      rw [List.getElem_zipWith, List.getElem_map]
      unfold cellPair
      congr 1
      split
      · split <;> rfl
      · rfl

/-- The columns of predictions with weights -/
def pairColumns (isNaN : α → Bool) (cell : α → Nat → α) (acts : Columns Nat) (p : List (String × α)) : Columns (α × Num) :=
  acts.filterMap fun c => (lookup p c.1).map fun q => (c.1, c.2.map (cellPair isNaN cell q))

theorem filterMap_congr' {β γ : Type} {f g : β → Option γ} {l : List β} (h : ∀ x ∈ l, f x = g x) : l.filterMap f = l.filterMap g :=
  List.filterMap_congr h

theorem init_one {isNaN : α → Bool} {cell : α → Nat → α} {p : List (String × α)} {w : Weights} {acts : Columns Nat}
    (h : Plain acts) (hw : ∀ q ∈ acts, w q.1 = some (.fin 1)) (hp : ∃ c ∈ acts, ∃ q, lookup p c.1 = some q) :
    initWeights isNaN acts (predictionVectors cell acts p) w = .ok (pairColumns isNaN cell acts p) := by
  unfold initWeights pairColumns
  have e := filterMap_congr' (l := acts) fun c hc =>
    weigh_one (isNaN := isNaN) (cell := cell) (p := p) h hc (hw c hc)
  simp only [e]
  rw [if_neg]
  intro h0
  obtain ⟨c, hc, q, hq⟩ := hp
  have : (c.1, c.2.map (cellPair isNaN cell q)) ∈
      (acts.filterMap fun c => (lookup p c.1).map fun q => (c.1, c.2.map (cellPair isNaN cell q))) :=
    List.mem_filterMap.2 ⟨c, hc, by rw [hq]; rfl⟩
  rw [List.length_eq_zero_iff.1 h0] at this
  cases this

theorem vectors_pairs {isNaN : α → Bool} {cell : α → Nat → α} {p : List (String × α)} {acts : Columns Nat} :
    predictionVectors cell acts p = (pairColumns isNaN cell acts p).map fun c => (c.1, c.2.map (·.1)) := by
  unfold predictionVectors pairColumns
  rw [List.map_filterMap]
  refine List.filterMap_congr fun c _ => ?_
  cases lookup p c.1 with
  | none => rfl
  | some q =>
    simp only [Option.map_some, List.map_map]
    rfl

theorem rowsOf_fst {n : Nat} {c : Columns (α × Num)} :
    rowsOf n (c.map fun c => (c.1, c.2.map (·.1))) = (rowsOf n c).map fun row => row.map (·.1) := by
  unfold rowsOf
  rw [List.map_map]
  refine List.map_congr_left fun i _ => ?_
  simp only [Function.comp, List.filterMap_map, List.map_filterMap]
  refine List.filterMap_congr fun p _ => ?_
  simp

/-- The weight is 1, or missing where the prediction is. -/
def FairCell (isNaN : α → Bool) (p : α × Num) : Prop :=
  (p.2 = .fin 1 ∧ isNaN p.1 = false) ∨ (p.2 = .nan ∧ isNaN p.1 = true)

theorem fair_pair {isNaN : α → Bool} {cell : α → Nat → α} (h0 : ∀ q, isNaN (cell q 0) = true) {q : α} {k : Nat} :
    FairCell isNaN (cellPair isNaN cell q k) := by
  unfold cellPair FairCell
  by_cases hk : k = 0
  · subst hk
    exact .inr ⟨rfl, h0 q⟩
  · simp only [if_neg hk]
    cases hn : isNaN (cell q k) with
    | true => exact .inr ⟨rfl, rfl⟩
    | false => exact .inl ⟨rfl, rfl⟩

theorem fair_rows {isNaN : α → Bool} {cell : α → Nat → α} (h0 : ∀ q, isNaN (cell q 0) = true) {p : List (String × α)}
    {acts : Columns Nat} {n : Nat} : ∀ row ∈ rowsOf n (pairColumns isNaN cell acts p), ∀ x ∈ row, FairCell isNaN x := by
  intro row hr x hx
  unfold rowsOf at hr
  obtain ⟨i, -, rfl⟩ := List.mem_map.1 hr
  obtain ⟨c, hc, hi⟩ := List.mem_filterMap.1 hx
  unfold pairColumns at hc
  obtain ⟨d, -, hd⟩ := List.mem_filterMap.1 hc
  cases hl : lookup p d.1 with
  | none => rw [hl] at hd; cases hd
  | some q =>
    rw [hl] at hd
    cases hd
    obtain ⟨k, -, rfl⟩ := List.mem_map.1 (List.mem_of_getElem? hi)
    exact fair_pair h0

theorem fair_mean {row : List (Num × Num)} (h : ∀ x ∈ row, FairCell Num.isNaN x) :
    Num.div (nansum (row.map fun p => Num.mul p.1 p.2)) (nansum (row.map (·.2))) = Num.nanmean (row.map (·.1)) := by
  have e1 : (row.map fun p => Num.mul p.1 p.2) = row.map (·.1) := by
    refine List.map_congr_left fun p hp => ?_
    rcases h p hp with ⟨h2, -⟩ | ⟨h2, h1⟩
    · rw [h2, mul_one]
    · obtain ⟨x, y⟩ := p
      cases x <;> cases h1
      rfl
  have e2 : nansum (row.map (·.2)) = .fin (Num.dropna (row.map (·.1))).length := by
    unfold nansum
    have : Num.dropna (row.map (·.2)) = List.replicate (Num.dropna (row.map (·.1))).length (.fin 1) := by
      unfold Num.dropna
      clear e1
      induction row with
      | nil => rfl
      | cons p row ih =>
        have ih := ih fun x hx => h x (List.mem_cons_of_mem _ hx)
        rw [List.map_cons, List.map_cons]
        have hp := h p List.mem_cons_self
        obtain ⟨x, y⟩ := p
        rcases hp with ⟨h2, h1⟩ | ⟨h2, h1⟩
        · dsimp only at h2 h1
          subst h2
          rw [List.filter_cons_of_pos (by rfl), List.filter_cons_of_pos (by simp [h1]), ih, List.length_cons,
            List.replicate_succ]
        · dsimp only at h2 h1
          subst h2
          rw [List.filter_cons_of_neg (by simp [Num.isNaN]), List.filter_cons_of_neg (by simp [h1]), ih]
    rw [this]
    generalize (Num.dropna (row.map (·.1))).length = n
    unfold Num.sum
    have : ∀ (n : Nat) (s : Rat), (List.replicate n (Num.fin 1)).foldl Num.add (.fin s) = .fin (s + n) := by
      intro n
      induction n with
      | zero => intro s; simp
      | succ n ih =>
        intro s
        rw [List.replicate_succ, List.foldl_cons]
        show (List.replicate n (Num.fin 1)).foldl Num.add (.fin (s + 1)) = _
        rw [ih]
        congr 1
        push_cast
        ring
    rw [this]
    simp
  rw [e1, e2]
  rfl

theorem regressorStacked_one {p : List (String × Num)} {w : Weights} {acts : Columns Nat} {n : Nat}
    (h : Plain acts) (hw : ∀ q ∈ acts, w q.1 = some (.fin 1)) (hp : ∃ c ∈ acts, ∃ q, lookup p c.1 = some q) :
    weightedRegressorStacked n acts (predictionVectors cellNum acts p) w =
      .ok (equalRegressorStacked n (predictionVectors cellNum acts p)) := by
  unfold weightedRegressorStacked equalRegressorStacked
  rw [init_one h hw hp]
  simp only [bind, Except.bind]
  rw [vectors_pairs (isNaN := Num.isNaN), rowsOf_fst, List.map_map]
  congr 1
  exact List.map_congr_left fun row hr => fair_mean (fair_rows (fun q => rfl) row hr)

theorem nanmax_one {l : List Num} (h : ∀ x ∈ l, x = .fin 1 ∨ x = .nan) (h1 : Num.fin 1 ∈ l) : nanmax l = .fin 1 := by
  unfold nanmax
  have hd : ∀ x ∈ Num.dropna l, x = .fin 1 := by
    intro x hx
    unfold Num.dropna at hx
    obtain ⟨hx, hn⟩ := List.mem_filter.1 hx
    rcases h x hx with rfl | rfl
    · rfl
    · cases hn
  have hm : Num.fin 1 ∈ Num.dropna l := List.mem_filter.2 ⟨h1, rfl⟩
  cases hl : Num.dropna l with
  | nil => rw [hl] at hm; cases hm
  | cons x rest =>
    rw [hl] at hd
    have hx := hd x List.mem_cons_self
    subst hx
    simp only
    have : ∀ rest : List Num, (∀ x ∈ rest, x = .fin 1) → rest.foldl Num.max (.fin 1) = .fin 1 := by
      intro rest
      induction rest with
      | nil => intro _; rfl
      | cons y rest ih =>
        intro hy
        rw [List.foldl_cons, hy y List.mem_cons_self]
        exact ih fun x hx => hy x (List.mem_cons_of_mem _ hx)
    exact this rest fun x hx => hd x (List.mem_cons_of_mem _ hx)

theorem nan_label {l : Label} (h : l.isNaN = true) : l = .num .nan := by
  cases l with
  | num x => cases x <;> first | rfl | cases h
  | text s => cases h

theorem classifierStacked_one {p : List (String × Label)} {w : Weights} {acts : Columns Nat}
    (h : Plain acts) (hw : ∀ q ∈ acts, w q.1 = some (.fin 1)) (hp : ∃ c ∈ acts, ∃ q, lookup p c.1 = some q) :
    weightedClassifierStacked (height acts) acts (predictionVectors cellLabel acts p) w =
      .ok (equalClassifierStacked (height acts) (predictionVectors cellLabel acts p)) := by
  have h0 : ∀ q : Label, Label.isNaN (cellLabel q 0) = true := by
    intro q
    cases q <;> rfl
  unfold weightedClassifierStacked
  rw [init_one h hw hp]
  simp only [bind, Except.bind]
  congr 2
  rw [vectors_pairs (isNaN := Label.isNaN)]
  refine List.map_congr_left fun c hc => ?_
  congr 1
  have hlen : c.2.length = height acts ∧ ∀ x ∈ c.2, FairCell Label.isNaN x := by
    have hc' := hc
    unfold pairColumns at hc'
    obtain ⟨d, hd, he⟩ := List.mem_filterMap.1 hc'
    cases hl : lookup p d.1 with
    | none => rw [hl] at he; cases he
    | some q =>
      rw [hl] at he
      cases he
      refine ⟨by simp [h.rows d hd], fun x hx => ?_⟩
      obtain ⟨k, -, rfl⟩ := List.mem_map.1 hx
      exact fair_pair h0
  apply List.ext_getElem
  · simp [rowsOf, hlen.1]
  · intro i h1 h2
    rw [List.length_map] at h2
    rw [List.getElem_zipWith, List.getElem_map, List.getElem_map]
    have hrow : (rowsOf (height acts) (pairColumns Label.isNaN cellLabel acts p))[i]'(by simp [rowsOf]; omega) ∈
        rowsOf (height acts) (pairColumns Label.isNaN cellLabel acts p) := List.getElem_mem _
    have hfair := fair_rows h0 _ hrow
    have hin : c.2[i] ∈ (rowsOf (height acts) (pairColumns Label.isNaN cellLabel acts p))[i]'(by simp [rowsOf]; omega) := by
      unfold rowsOf
      rw [List.getElem_map]
      refine List.mem_filterMap.2 ⟨c, hc, ?_⟩
      rw [List.getElem_range]
      exact List.getElem?_eq_getElem h2
    rcases hlen.2 c.2[i] (List.getElem_mem _) with ⟨g1, g2⟩ | ⟨g1, g2⟩
    · rw [nanmax_one, g1, if_pos (by decide +kernel)]
      · intro x hx
        obtain ⟨y, hy, rfl⟩ := List.mem_map.1 hx
        rcases hfair y hy with ⟨g, -⟩ | ⟨g, -⟩
        · exact .inl g
        · exact .inr g
      · exact List.mem_map.2 ⟨_, hin, g1⟩
    · rw [g1, if_neg (by simp [Num.beq, Num.le]), nan_label g2]

variable {a : Rat}

theorem regStacked_congr {n : Nat} {acts : Columns Nat} {preds : Columns Num} {w w' : Weights} (h : ∀ q ∈ acts, w' q.1 = w q.1) :
    weightedRegressorStacked n acts preds w' = weightedRegressorStacked n acts preds w := by
  have e : initWeights Num.isNaN acts preds w' = initWeights Num.isNaN acts preds w := by
    unfold initWeights
    have : acts.filterMap (weighColumn Num.isNaN preds w') = acts.filterMap (weighColumn Num.isNaN preds w) := by
      refine List.filterMap_congr fun c hc => ?_
      unfold weighColumn cellWeight
      rw [h c hc]
    rw [this]
  unfold weightedRegressorStacked
  rw [e]

theorem classStacked_congr {n : Nat} {acts : Columns Nat} {preds : Columns Label} {w w' : Weights} (h : ∀ q ∈ acts, w' q.1 = w q.1) :
    weightedClassifierStacked n acts preds w' = weightedClassifierStacked n acts preds w := by
  have e : initWeights Label.isNaN acts preds w' = initWeights Label.isNaN acts preds w := by
    unfold initWeights
    have : acts.filterMap (weighColumn Label.isNaN preds w') = acts.filterMap (weighColumn Label.isNaN preds w) := by
      refine List.filterMap_congr fun c hc => ?_
      unfold weighColumn cellWeight
      rw [h c hc]
    rw [this]
  unfold weightedClassifierStacked
  rw [e]

theorem predictStacked_same (ha : 0 < a) {S : SetEnv} {rules : List Rule} {acts : Columns Nat} {w : Weights} (h : Plain acts)
    (hn : ∀ q ∈ acts, ∃ r ∈ rules, S.condStr r.cond = q.1) (hw : SameWeight S.condStr rules a w) :
    predictStacked S rules acts (some w) = predictStacked S rules acts none := by
  have hw' : ∀ q ∈ acts, w q.1 = some (.fin a) := by
    intro q hq
    obtain ⟨r, hr, e⟩ := hn q hq
    rw [← e]
    exact hw r hr
  have hw1 : ∀ q ∈ acts, w q.1 = (fun _ => some (Num.mul (.fin a) (.fin 1)) : Weights) q.1 := by
    intro q hq
    rw [hw' q hq]
    simp [Num.mul]
  have htimes : TimesWeights a (fun _ => some (.fin 1)) (fun _ => some (Num.mul (.fin a) (.fin 1))) := fun _ => rfl
  unfold predictStacked
  cases hl : labelsOf S rules with
  | error e => rfl
  | ok preds =>
    simp only [bind, Except.bind]
    by_cases h0 : height acts = 0
    · rw [if_pos h0, if_pos h0]
    · rw [if_neg h0, if_neg h0]
      obtain ⟨c, hc⟩ : ∃ c, c ∈ acts := by
        cases acts with
        | nil => exact absurd rfl h0
        | cons c _ => exact ⟨c, List.mem_cons_self⟩
      obtain ⟨r, hr, e⟩ := hn c hc
      have hkey : c.1 ∈ preds.map (·.1) := by
        rw [← e]
        exact labelsOf_keys hl hr
      cases S.env.kind with
      | regression =>
        simp only
        cases hp : onlyNumbers preds with
        | error e => rfl
        | ok p =>
          simp only
          have hex : ∃ c ∈ acts, ∃ q, lookup p c.1 = some q :=
            ⟨c, hc, lookup_of_key (by rw [onlyNumbers_keys hp]; exact hkey)⟩
          rw [regStacked_congr (w := fun _ => some (Num.mul (.fin a) (.fin 1))) hw1, regressorStacked_A ha htimes, regressorStacked_one h (fun _ _ => rfl) hex]
          rfl
      | classification =>
        simp only
        split
        · rfl
        · have hex : ∃ c ∈ acts, ∃ q, lookup preds c.1 = some q := ⟨c, hc, lookup_of_key hkey⟩
          rw [classStacked_congr (w := fun _ => some (Num.mul (.fin a) (.fin 1))) hw1, classifierStacked_A ha htimes, classifierStacked_one h (fun _ _ => rfl) hex]

/-- What `predict` does without weights and without stacked activations -/
theorem predict_none {R : RsEnv} {s : RuleSet} {k : Kind} {xs : Option Xs} (hne : s.rules ≠ [])
    (hk : s.ruleType = some k) (hu : R.stackedFit = false ∨ s.stacked = none) :
    RuleSet.predict R xs none s =
      ((Vote.predictUnstacked (RuleSet.voteEnv R k) none xs (s.rules.map (·.rule))).1.map (List.map Cell.label),
        { s with rules := RuleSet.putBack s.rules (Vote.predictUnstacked (RuleSet.voteEnv R k) none xs (s.rules.map (·.rule))).2 }) := by
  have hp : RuleSet.predictUnstacked R k xs none s =
      ((Vote.predictUnstacked (RuleSet.voteEnv R k) none xs (s.rules.map (·.rule))).1.map (List.map Cell.label),
        { s with rules := RuleSet.putBack s.rules (Vote.predictUnstacked (RuleSet.voteEnv R k) none xs (s.rules.map (·.rule))).2 }) := by
    unfold RuleSet.predictUnstacked RuleSet.weightsOf
    simp only [Py.bind_run, Py.get_run, Py.ofExcept_run, Py.modify_run]
    cases Vote.predictUnstacked (RuleSet.voteEnv R k) none xs (s.rules.map (·.rule)) with
    | mk o l => cases o <;> rfl
  have hq : RuleSet.predict R xs none s = RuleSet.predictUnstacked R k xs none s := by
    unfold RuleSet.predict
    simp only [Py.bind_run, Py.get_run]
    rw [if_neg (by simpa using hne), hk]
    rcases hu with hu | hu
    · rw [hu]
    · rw [hu]
      cases R.stackedFit <;> rfl
  rw [hq]
  exact hp

theorem predict_none_classes {S : SetEnv} {xs : Option Xs} {rules : List Rule} (hS : S.env.kind = .classification) :
    Vote.predictUnstacked S none xs rules = (equalClassifier S rules xs, rules) := by
  unfold Vote.predictUnstacked
  simp only [Py.bind_run, Py.get_run, hS]
  rfl

theorem predict_none_numbers {S : SetEnv} {xs : Option Xs} {rules : List Rule} (hS : S.env.kind = .regression) :
    (Vote.predictUnstacked S none xs rules).1 = ((equalRegressor S xs rules).1).map (List.map Label.num) := by
  unfold Vote.predictUnstacked
  simp only [Py.bind_run, Py.get_run, hS]
  cases equalRegressor S xs rules with
  | mk o l => cases o <;> rfl

end Verif.WeightRatio
