import Verif.EqualWeightLemmas

/-!
# Lemmas on stacked activations of which some columns are zeros only
-/

namespace Verif.WeightRatio

open Verif Verif.Spec Vote

variable {α : Type}

/-- The rule of this column is active somewhere. -/
def busy (q : String × List Nat) : Bool := q.2.any (· = 1)

theorem busy_iff {q : String × List Nat} : busy q = true ↔ 1 ∈ q.2 := by
  unfold busy
  simp

theorem idle_zero {q : String × List Nat} (hb : ∀ k ∈ q.2, k ≤ 1) (h : busy q = false) : ∀ k ∈ q.2, k = 0 := by
  intro k hk
  have h1 := hb k hk
  rcases Nat.lt_or_ge k 1 with h0 | h0
  · omega
  · have : k = 1 := by omega
    subst this
    rw [busy_iff.2 hk] at h
    cases h

/-- What is filtered out afterwards may be left out before. -/
theorem filterMap_idle {β γ : Type} {f : β → Option γ} {good : γ → Bool} {act : β → Bool} {l : List β}
    (h : ∀ x ∈ l, act x = false → ∀ y, f x = some y → good y = false) :
    (l.filterMap f).filter good = ((l.filter act).filterMap f).filter good := by
  induction l with
  | nil => rfl
  | cons x l ih =>
    have ih := ih fun y hy => h y (List.mem_cons_of_mem _ hy)
    cases ha : act x with
    | true =>
      rw [List.filter_cons_of_pos ha]
      cases hf : f x with
      | none => rw [List.filterMap_cons_none hf, List.filterMap_cons_none hf, ih]
      | some y =>
        rw [List.filterMap_cons_some hf, List.filterMap_cons_some hf, List.filter_cons, List.filter_cons, ih]
    | false =>
      rw [List.filter_cons_of_neg (by simp [ha])]
      cases hf : f x with
      | none => rw [List.filterMap_cons_none hf, ih]
      | some y =>
        rw [List.filterMap_cons_some hf, List.filter_cons_of_neg (by simp [h x List.mem_cons_self ha y hf]), ih]

theorem height_busy {acts : Columns Nat} (hr : ∀ q ∈ acts, q.2.length = height acts) (hs : ∃ q ∈ acts, 1 ∈ q.2) :
    height (acts.filter busy) = height acts := by
  cases hf : acts.filter busy with
  | nil =>
    obtain ⟨q, hq, h1⟩ := hs
    have : q ∈ acts.filter busy := List.mem_filter.2 ⟨hq, busy_iff.2 h1⟩
    rw [hf] at this
    cases this
  | cons q rest =>
    have : q ∈ acts.filter busy := by rw [hf]; exact List.mem_cons_self
    have := hr q (List.mem_of_mem_filter this)
    obtain ⟨n, v⟩ := q
    exact this

/-- The weights do not see a column of zeros. -/
theorem init_busy {isNaN : α → Bool} {cell : α → Nat → α} {p : List (String × α)} {w : Weights} {acts : Columns Nat}
    (hn : (acts.map (·.1)).Nodup) (hb : ∀ q ∈ acts, ∀ k ∈ q.2, k ≤ 1) :
    initWeights isNaN acts (predictionVectors cell acts p) w =
      initWeights isNaN (acts.filter busy) (predictionVectors cell (acts.filter busy) p) w := by
  have hn' : ((acts.filter busy).map (·.1)).Nodup := List.Nodup.sublist (List.Sublist.map _ List.filter_sublist) hn
  have e : acts.filterMap (weighColumn isNaN (predictionVectors cell acts p) w) =
      (acts.filter busy).filterMap (weighColumn isNaN (predictionVectors cell (acts.filter busy) p) w) := by
    have e1 : (acts.filter busy).filterMap (weighColumn isNaN (predictionVectors cell (acts.filter busy) p) w) =
        (acts.filter busy).filterMap (weighColumn isNaN (predictionVectors cell acts p) w) := by
      refine List.filterMap_congr fun c hc => ?_
      unfold weighColumn
      rw [lookup_vectors hn' hc, lookup_vectors hn (List.mem_of_mem_filter hc)]
    rw [e1]
    have := filterMap_idle (f := weighColumn isNaN (predictionVectors cell acts p) w) (good := fun _ => true) (act := busy) (l := acts) (by
      intro c hc hi y hy
      exfalso
      unfold weighColumn at hy
      have hall : (c.2.map (cellWeight w c.1)).all Num.isNaN = true := by
        refine List.all_eq_true.2 fun x hx => ?_
        obtain ⟨k, hk, rfl⟩ := List.mem_map.1 hx
        rw [idle_zero (hb c hc) hi k hk]
        unfold cellWeight
        cases w c.1 with
        | none => rfl
        | some x => rfl
      rw [hall] at hy
      split at hy
      · cases hy
      · rw [if_pos rfl] at hy
        cases hy)
    simpa using this
  unfold initWeights
  rw [e]

/-- The row `i` of the predictions, without what is missing -/
theorem row_busy {isNaN : α → Bool} {cell : α → Nat → α} (h0 : ∀ q, isNaN (cell q 0) = true) {p : List (String × α)}
    {acts : Columns Nat} (hb : ∀ q ∈ acts, ∀ k ∈ q.2, k ≤ 1) (i : Nat) :
    ((predictionVectors cell acts p).filterMap fun c => c.2[i]?).filter (fun x => !isNaN x) =
      ((predictionVectors cell (acts.filter busy) p).filterMap fun c => c.2[i]?).filter fun x => !isNaN x := by
  unfold predictionVectors
  rw [List.filterMap_filterMap, List.filterMap_filterMap]
  refine filterMap_idle (act := busy) fun c hc hi y hy => ?_
  cases hl : lookup p c.1 with
  | none => rw [hl] at hy; cases hy
  | some q =>
    rw [hl] at hy
    simp only [Option.map_some, Option.bind_some, List.getElem?_map] at hy
    cases hk : c.2[i]? with
    | none => rw [hk] at hy; cases hy
    | some k =>
      rw [hk] at hy
      cases hy
      rw [idle_zero (hb c hc) hi k (List.mem_of_getElem? hk), h0]
      rfl

theorem equalRegressor_busy {p : List (String × Num)} {acts : Columns Nat} (hb : ∀ q ∈ acts, ∀ k ∈ q.2, k ≤ 1) {n : Nat} :
    equalRegressorStacked n (predictionVectors cellNum acts p) =
      equalRegressorStacked n (predictionVectors cellNum (acts.filter busy) p) := by
  unfold equalRegressorStacked rowsOf
  rw [List.map_map, List.map_map]
  refine List.map_congr_left fun i _ => ?_
  show Num.nanmean _ = Num.nanmean _
  have := row_busy (isNaN := Num.isNaN) (cell := cellNum) (p := p) (fun q => rfl) hb i
  unfold Num.nanmean Num.dropna
  rw [this]

/-- No class is the text "nan". -/
theorem textNaN_id {l : Label} (h : l ≠ .text "nan") : textNaN l = l := by
  cases l with
  | num x => rfl
  | text s =>
    show (if s = "nan" then Label.num .nan else .text s) = _
    rw [if_neg fun e => h (by rw [e])]

theorem plain_rows {p : List (String × Label)} {acts : Columns Nat} (hq : ∀ x ∈ p, x.2 ≠ .text "nan") {n : Nat} :
    equalClassifierStacked n (predictionVectors cellLabel acts p) = voteRows (rowsOf n (predictionVectors cellLabel acts p)) := by
  unfold equalClassifierStacked
  split
  · show voteRows ((rowsOf n (predictionVectors cellLabel acts p)).map fun r => r.map textNaN) = _
    congr 1
    rw [List.map_congr_left (g := id), List.map_id]
    intro row hrow
    show row.map textNaN = row
    rw [List.map_congr_left (g := id), List.map_id]
    intro l hl
    refine textNaN_id fun e => ?_
    unfold rowsOf at hrow
    obtain ⟨i, -, rfl⟩ := List.mem_map.1 hrow
    obtain ⟨c, hc, hi⟩ := List.mem_filterMap.1 hl
    unfold predictionVectors at hc
    obtain ⟨d, -, hd⟩ := List.mem_filterMap.1 hc
    cases hlk : lookup p d.1 with
    | none => rw [hlk] at hd; cases hd
    | some q =>
      rw [hlk] at hd
      cases hd
      obtain ⟨k, -, hk⟩ := List.mem_map.1 (List.mem_of_getElem? hi)
      subst e
      have hqn : q ≠ .text "nan" := by
        unfold lookup at hlk
        cases hfd : p.find? fun q => q.1 = d.1 with
        | none => rw [hfd] at hlk; cases hlk
        | some x =>
          rw [hfd] at hlk
          cases hlk
          exact hq x (List.mem_of_find?_eq_some hfd)
      cases q with
      | num x => cases hk
      | text s =>
        simp only [cellLabel, cellText] at hk
        split at hk
        · cases hk
        · split at hk
          · exact hqn hk
          · cases hk
  · rfl

theorem winner_congr {r r' : List Label} (h : (r.filter fun l => !l.isNaN) = r'.filter fun l => !l.isNaN) : winner r = winner r' := by
  unfold winner modes
  rw [h]

theorem equalClassifier_busy {p : List (String × Label)} {acts : Columns Nat} (hq : ∀ x ∈ p, x.2 ≠ .text "nan")
    (hb : ∀ q ∈ acts, ∀ k ∈ q.2, k ≤ 1) {n : Nat} :
    equalClassifierStacked n (predictionVectors cellLabel acts p) =
      equalClassifierStacked n (predictionVectors cellLabel (acts.filter busy) p) := by
  rw [plain_rows hq, plain_rows hq]
  have h0 : ∀ q : Label, Label.isNaN (cellLabel q 0) = true := by
    intro q
    cases q <;> rfl
  have hd : (rowsOf n (predictionVectors cellLabel acts p)).map winner =
      (rowsOf n (predictionVectors cellLabel (acts.filter busy) p)).map winner := by
    unfold rowsOf
    rw [List.map_map, List.map_map]
    refine List.map_congr_left fun i _ => ?_
    exact winner_congr (row_busy (isNaN := Label.isNaN) h0 hb i)
  have hl : (rowsOf n (predictionVectors cellLabel acts p)).length =
      (rowsOf n (predictionVectors cellLabel (acts.filter busy) p)).length := by
    unfold rowsOf
    rw [List.length_map, List.length_map]
  unfold voteRows
  rw [hd, hl]

/-- A prediction does not see the columns of zeros. -/
theorem predictStacked_busy {S : SetEnv} {rules : List Rule} {acts : Columns Nat} {w : Option Weights} (hn : (acts.map (·.1)).Nodup)
    (hb : ∀ q ∈ acts, ∀ k ∈ q.2, k ≤ 1) (hr : ∀ q ∈ acts, q.2.length = height acts) (hs : ∃ q ∈ acts, 1 ∈ q.2)
    (hq : ∀ preds, labelsOf S rules = .ok preds → ∀ x ∈ preds, x.2 ≠ .text "nan") :
    predictStacked S rules acts w = predictStacked S rules (acts.filter busy) w := by
  unfold predictStacked
  cases hl : labelsOf S rules with
  | error e => rfl
  | ok preds =>
    simp only [bind, Except.bind]
    rw [height_busy hr hs]
    split
    · rfl
    · cases S.env.kind with
      | regression =>
        simp only
        cases onlyNumbers preds with
        | error e => rfl
        | ok p =>
          cases w with
          | none =>
            simp only
            rw [equalRegressor_busy hb]
          | some w =>
            simp only
            unfold weightedRegressorStacked
            rw [init_busy hn hb]
      | classification =>
        simp only
        split
        · rfl
        · cases w with
          | none =>
            simp only
            rw [equalClassifier_busy (hq preds hl) hb]
          | some w =>
            simp only
            unfold weightedClassifierStacked
            rw [init_busy hn hb]

/-- The values of a dictionary are among the values given. -/
theorem dict_values {β : Type} {P : β → Prop} (l : List (String × β)) : ∀ (acc : List (String × β)), (∀ q ∈ acc, P q.2) → (∀ q ∈ l, P q.2) →
    ∀ q ∈ l.foldl (fun acc p =>
      if acc.any (fun q => q.1 = p.1) then acc.map (fun q => if q.1 = p.1 then p else q) else acc ++ [p]) acc, P q.2 := by
  induction l with
  | nil => intro acc h _; exact h
  | cons p l ih =>
    intro acc ha hl
    rw [List.foldl_cons]
    have hp := hl p List.mem_cons_self
    refine ih _ ?_ fun q hq => hl q (List.mem_cons_of_mem _ hq)
    split
    · intro q hq
      obtain ⟨x, hx, rfl⟩ := List.mem_map.1 hq
      split
      · exact hp
      · exact ha x hx
    · intro q hq
      rcases List.mem_append.1 hq with h | h
      · exact ha q h
      · rw [List.mem_singleton.1 h]
        exact hp

theorem labelsOf_values {S : SetEnv} {P : Label → Prop} (hn : P (.num .nan)) {rules : List Rule} {preds : List (String × Label)}
    (hp : ∀ r ∈ rules, ∀ l, r.getPrediction S.env = .ok (some l) → P l) (h : labelsOf S rules = .ok preds) : ∀ x ∈ preds, P x.2 := by
  unfold labelsOf at h
  cases hm : rules.mapM (fun r : Rule => (r.getPrediction S.env).map fun p => (S.condStr r.cond, p.getD (.num .nan))) with
  | error e => rw [hm] at h; cases h
  | ok l =>
    rw [hm] at h
    cases h
    refine dict_values (P := P) l [] (fun q hq => by cases hq) ?_
    clear * - hm hp hn
    induction rules generalizing l with
    | nil => cases hm; intro q hq; cases hq
    | cons r rules ih =>
      rw [List.mapM_cons] at hm
      cases hr : r.getPrediction S.env with
      | error e => rw [hr] at hm; cases hm
      | ok p =>
        rw [hr] at hm
        simp only [Except.map, bind, Except.bind] at hm
        cases hrest : rules.mapM (fun r : Rule => (r.getPrediction S.env).map fun p => (S.condStr r.cond, p.getD (.num .nan))) with
        | error e =>
          simp only [Except.map] at hrest
          rw [hrest] at hm
          cases hm
        | ok l' =>
          have hrest' := hrest
          simp only [Except.map] at hrest
          rw [hrest] at hm
          cases hm
          intro q hq
          rcases List.mem_cons.1 hq with rfl | hq
          · cases p with
            | none => exact hn
            | some x => exact hp r List.mem_cons_self x hr
          · exact ih (fun r hr => hp r (List.mem_cons_of_mem _ hr)) l' hrest' q hq

end Verif.WeightRatio
