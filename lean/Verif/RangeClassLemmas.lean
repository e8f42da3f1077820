import Verif.RangeLemmas

/-!
# Lemmas about the classes which can be predicted
-/

namespace Verif.Range

open Verif Spec Vote

/-- One of the rules predicts this class. -/
def SomeoneSays (E : Env) (rules : List Rule) (l : Label) : Prop := ∃ r ∈ rules, r.getPrediction E = .ok (some l)

/-! ## Without stacked activations -/

theorem addRow_mem {t t' : Table} {p : Label} {v : List Num} (h : addRow t p v = .ok t') : ∀ q ∈ t', q.1 = p ∨ ∃ q' ∈ t, q'.1 = q.1 := by
  induction t generalizing t' with
  | nil => cases h; simp
  | cons a t ih =>
    obtain ⟨b, u⟩ := a
    simp only [addRow] at h
    split at h; · cases h
    split at h
    · cases h
      intro q hq
      rcases List.mem_cons.1 hq with rfl | hq
      · right; exact ⟨(b, u), by simp, rfl⟩
      · right; exact ⟨q, by simp [hq], rfl⟩
    · cases hr : addRow t p v with
      | error e => rw [hr] at h; cases h
      | ok t1 =>
        rw [hr] at h
        cases h
        intro q hq
        rcases List.mem_cons.1 hq with rfl | hq
        · right; exact ⟨(b, u), by simp, rfl⟩
        · rcases ih hr q hq with h1 | ⟨q', h1, h2⟩
          · exact .inl h1
          · exact .inr ⟨q', by simp [h1], h2⟩

theorem classStep_mem {S : SetEnv} {w : Weights} {xs : Option Xs} {t t' : Table} {r : Rule} (h : classStep S w xs t r = .ok t') :
    ∀ q ∈ t', r.getPrediction S.env = .ok (some q.1) ∨ ∃ q' ∈ t, q'.1 = q.1 := by
  have same : ∀ q ∈ t, r.getPrediction S.env = .ok (some q.1) ∨ ∃ q' ∈ t, q'.1 = q.1 := fun q hq => .inr ⟨q, hq, rfl⟩
  simp only [classStep] at h
  split at h
  · cases h; exact same
  · simp only [bind, Except.bind] at h
    split at h; · cases h
    split at h
    · cases h; exact same
    · split at h
      · cases h; exact same
      · split at h; · cases h
        next hp =>
          split at h; · cases h
          intro q hq
          rcases addRow_mem h q hq with h1 | h1
          · left; rw [h1]; exact hp
          · exact .inr h1

theorem classTable_mem {S : SetEnv} {w : Weights} {xs : Option Xs} {rules : List Rule} {t t' : Table}
    (h : rules.foldlM (classStep S w xs) t = .ok t') : ∀ q ∈ t', SomeoneSays S.env rules q.1 ∨ ∃ q' ∈ t, q'.1 = q.1 := by
  induction rules generalizing t with
  | nil => cases h; exact fun q hq => .inr ⟨q, hq, rfl⟩
  | cons r rules ih =>
    simp only [List.foldlM_cons, bind, Except.bind] at h
    split at h; · cases h
    next t1 h1 =>
      intro q hq
      rcases ih h q hq with ⟨r', hr', h2⟩ | ⟨q', hq', e⟩
      · exact .inl ⟨r', by simp [hr'], h2⟩
      · rcases classStep_mem h1 q' hq' with h3 | ⟨q2, h3, h4⟩
        · left; rw [← e]; exact ⟨r, by simp, h3⟩
        · right; exact ⟨q2, h3, h4.trans e⟩

theorem decideClass_mem (column : List (Label × Num)) : decideClass column = .num .nan ∨ ∃ p ∈ column, p.1 = decideClass column := by
  simp only [decideClass]
  split
  · exact .inl rfl
  · split
    · exact .inl rfl
    · split
      · next p hp =>
        right
        have : p ∈ column.filter fun q => q.2.beq (nanmax (column.map (·.2))) := by rw [hp]; simp
        exact ⟨p, (List.mem_filter.1 this).1, rfl⟩
      · exact .inl rfl

theorem weightedClassifier_mem {S : SetEnv} {w : Weights} {xs : Option Xs} {rules : List Rule} {l : List Label}
    (h : weightedClassifier S rules w xs = .ok l) : ∀ c ∈ l, c = .num .nan ∨ SomeoneSays S.env rules c := by
  simp only [weightedClassifier] at h
  split at h
  · cases h; simp
  · simp only [bind, Except.bind] at h
    split at h; · cases h
    next t ht =>
      split at h; · cases h
      cases h
      intro c hc
      obtain ⟨column, hcol, rfl⟩ := List.mem_map.1 hc
      rcases decideClass_mem column with h1 | ⟨p, hp, h1⟩
      · exact .inl h1
      · right
        rw [← h1]
        have : ∃ q ∈ t, q.1 = p.1 := by
          unfold columns at hcol
          split at hcol
          · simp at hcol
          · obtain ⟨i, -, rfl⟩ := List.mem_map.1 hcol
            obtain ⟨q, hq, rfl⟩ := List.mem_map.1 hp
            exact ⟨q, hq, rfl⟩
        obtain ⟨q, hq, e⟩ := this
        rw [← e]
        rcases classTable_mem ht q hq with h2 | ⟨q', h2, -⟩
        · exact h2
        · simp at h2

/-! ## With stacked activations -/

theorem counter_mem {l : List Label} {p : Label × Nat} (h : p ∈ RFun.counter l) : p.1 ∈ l := by
  have key : ∀ (l : List Label) (acc : List (Label × Nat)) (p : Label × Nat), p ∈ l.foldl (fun acc x =>
      if acc.any (fun p => p.1.eq x) then acc.map (fun p => if p.1.eq x then (p.1, p.2 + 1) else p) else acc ++ [(x, 1)]) acc →
      p.1 ∈ l ∨ ∃ q ∈ acc, q.1 = p.1 := by
    intro l
    induction l with
    | nil => intro acc p h; exact .inr ⟨p, h, rfl⟩
    | cons x l ih =>
      intro acc p h
      rw [List.foldl_cons] at h
      rcases ih _ p h with h | ⟨q, hq, e⟩
      · left; simp [h]
      · split at hq
        · obtain ⟨q', hq', rfl⟩ := List.mem_map.1 hq
          right
          refine ⟨q', hq', ?_⟩
          rw [← e]
          split <;> rfl
        · rcases List.mem_append.1 hq with hq | hq
          · exact .inr ⟨q, hq, e⟩
          · left
            simp only [List.mem_singleton] at hq
            rw [← e, hq]
            simp
  rcases key l [] p h with h | ⟨q, hq, -⟩
  · exact h
  · simp at hq

theorem modes_mem {row : List Label} {l : Label} (h : l ∈ modes row) : l ∈ row := by
  simp only [modes] at h
  obtain ⟨p, hp, rfl⟩ := List.mem_map.1 h
  exact (List.mem_filter.1 (counter_mem (List.mem_filter.1 hp).1)).1

theorem winner_mem {row : List Label} {l : Label} (h : winner row = some l) : l ∈ row := by
  unfold winner at h
  split at h
  · next l' hl =>
    cases h
    exact modes_mem (by rw [hl]; simp)
  · cases h

theorem voteRows_mem {rows : List (List Label)} {c : Cell} (h : c ∈ voteRows rows) :
    c = .frame ∨ c = .label (.num .nan) ∨ ∃ row ∈ rows, ∃ l ∈ row, c = .label l := by
  simp only [voteRows] at h
  split at h
  · obtain ⟨i, -, rfl⟩ := List.mem_map.1 h
    split
    · exact .inl rfl
    · exact .inr (.inl rfl)
  · next l hl =>
    obtain ⟨i, -, rfl⟩ := List.mem_map.1 h
    split
    · right; right
      have : l ∈ (rows.map winner).filterMap id := by rw [hl]; simp
      obtain ⟨o, ho, e⟩ := List.mem_filterMap.1 this
      obtain ⟨row, hrow, rfl⟩ := List.mem_map.1 ho
      exact ⟨row, hrow, l, winner_mem e, rfl⟩
    · exact .inr (.inl rfl)
  · obtain ⟨d, hd, rfl⟩ := List.mem_map.1 h
    obtain ⟨row, hrow, rfl⟩ := List.mem_map.1 hd
    cases hw : winner row with
    | none => exact .inr (.inl rfl)
    | some l => exact .inr (.inr ⟨row, hrow, l, winner_mem hw, rfl⟩)

/-- Every label of the columns is missing or one of these. -/
def LabelsIn (P : Label → Prop) (preds : Columns Label) : Prop := ∀ c ∈ preds, ∀ l ∈ c.2, l = .num .nan ∨ P l

theorem equalClassifierStacked_mem {P : Label → Prop} {n : Nat} {preds : Columns Label} (hp : LabelsIn P preds) {c : Cell}
    (h : c ∈ equalClassifierStacked n preds) : c = .frame ∨ c = .label (.num .nan) ∨ ∃ l, P l ∧ c = .label l := by
  have row : ∀ row ∈ rowsOf n preds, ∀ l ∈ row, l = .num .nan ∨ P l := fun row hrow l hl => by
    obtain ⟨p, hpp, hlp⟩ := mem_rowsOf hrow hl
    exact hp p hpp l hlp
  have fin : ∀ l : Label, (l = .num .nan ∨ P l) → c = .label l → c = .frame ∨ c = .label (.num .nan) ∨ ∃ l, P l ∧ c = .label l := by
    rintro l (rfl | h1) e
    · exact .inr (.inl e)
    · exact .inr (.inr ⟨l, h1, e⟩)
  simp only [equalClassifierStacked] at h
  rcases voteRows_mem h with h1 | h1 | ⟨r, hr, l, hl, e⟩
  · exact .inl h1
  · exact .inr (.inl h1)
  · split at hr
    · obtain ⟨r0, hr0, rfl⟩ := List.mem_map.1 hr
      obtain ⟨l0, hl0, rfl⟩ := List.mem_map.1 hl
      refine fin _ ?_ e
      have h0 := row r0 hr0 l0 hl0
      unfold textNaN
      split
      · split
        · exact .inl rfl
        · exact h0
      · exact h0
    · exact fin l (row r hr l hl) e

theorem cellLabel_mem (l : Label) {a : Nat} (ha : a = 0 ∨ a = 1) : cellLabel l a = .num .nan ∨ cellLabel l a = l := by
  rcases ha with rfl | rfl
  · left; cases l <;> rfl
  · right
    cases l with
    | num p => cases p <;> simp [cellLabel, cellNum, Num.mul, Num.infSign]
    | text s => rfl

theorem vectors_mem {acts : Columns Nat} {d : List (String × Label)} {P : Label → Prop} (ha : ColsOk acts)
    (hd : ∀ p ∈ d, p.2 = .num .nan ∨ P p.2) : LabelsIn P (predictionVectors cellLabel acts d) := by
  intro c hc l hl
  obtain ⟨a, haa, he⟩ := List.mem_filterMap.1 hc
  cases hk : lookup d a.1 with
  | none => rw [hk] at he; cases he
  | some q =>
    rw [hk] at he
    cases he
    obtain ⟨b, hb, rfl⟩ := List.mem_map.1 hl
    rcases cellLabel_mem q (ha a haa b hb) with e | e
    · exact .inl e
    · rw [e]; exact hd _ (lookup_mem hk)

theorem weightedClassifierStacked_mem {P : Label → Prop} {n : Nat} {acts : Columns Nat} {preds : Columns Label} {w : Weights}
    (hp : LabelsIn P preds) {l : List Cell} (h : weightedClassifierStacked n acts preds w = .ok l) :
    ∀ c ∈ l, c = .frame ∨ c = .label (.num .nan) ∨ ∃ k, P k ∧ c = .label k := by
  simp only [weightedClassifierStacked, initWeights, bind, Except.bind] at h
  split at h; · cases h
  next cols hcols =>
    split at hcols; · cases hcols
    cases hcols
    cases h
    intro c hc
    refine equalClassifierStacked_mem (P := P) ?_ hc
    intro m hm k hk
    obtain ⟨col, hcol, rfl⟩ := List.mem_map.1 hm
    simp only at hk
    rw [← List.map_uncurry_zip_eq_zipWith] at hk
    obtain ⟨⟨q, b⟩, hqb, rfl⟩ := List.mem_map.1 hk
    have hq := (List.of_mem_zip hqb).1
    simp only [Function.uncurry]
    split
    · obtain ⟨a, -, he⟩ := List.mem_filterMap.1 hcol
      unfold weighColumn at he
      cases hl : lookup preds a.1 with
      | none => rw [hl] at he; cases he
      | some v =>
        rw [hl] at he
        simp only at he
        split at he; · cases he
        cases he
        simp only at hq
        rw [← List.map_uncurry_zip_eq_zipWith] at hq
        obtain ⟨⟨q', b'⟩, hqb', rfl⟩ := List.mem_map.1 hq
        exact hp _ (lookup_mem hl) q' (List.of_mem_zip hqb').1
    · exact .inl rfl

theorem predictStacked_mem {S : SetEnv} {rules : List Rule} {acts : Columns Nat} {w : Option Weights} {l : List Cell}
    (hk : S.env.kind = .classification) (ha : ColsOk acts) (h : predictStacked S rules acts w = .ok l) :
    ∀ c ∈ l, c = .frame ∨ c = .label (.num .nan) ∨ ∃ k, SomeoneSays S.env rules k ∧ c = .label k := by
  simp only [predictStacked, hk, bind, Except.bind] at h
  split at h; · cases h
  next d hd =>
    have hlab : LabelsIn (SomeoneSays S.env rules) (predictionVectors cellLabel acts d) := by
      refine vectors_mem ha fun p hp => ?_
      obtain ⟨r, hr, -, o, ho, e⟩ := labelsOf_mem hd hp
      cases o with
      | none => exact .inl e
      | some k => right; rw [e]; exact ⟨r, hr, ho⟩
    split at h
    · cases h; simp
    · split at h; · cases h
      cases w with
      | none =>
        cases h
        exact fun c hc => equalClassifierStacked_mem hlab hc
      | some w' => exact weightedClassifierStacked_mem hlab h

/-! ## The class which a rule predicts -/

theorem extract_mem {α} {act : List Nat} {y l : List α} (h : RFun.extract act y = .ok l) : ∀ a ∈ l, a ∈ y := by
  induction act generalizing y l with
  | nil => cases h; simp
  | cons b act ih =>
    cases y with
    | nil =>
      simp only [RFun.extract] at h
      split at h; · cases h
      exact ih h
    | cons x y =>
      simp only [RFun.extract] at h
      cases he : RFun.extract act y with
      | error e => rw [he] at h; cases h
      | ok l' =>
        rw [he] at h
        cases h
        intro a ha
        simp only at ha
        split at ha
        · rcases List.mem_cons.1 ha with rfl | ha
          · simp
          · simp [ih he a ha]
        · simp [ih he a ha]

theorem classProbabilities_mem {act : List Nat} {y : List Label} {p : List (Label × Rat)} (h : RFun.classProbabilities act y = .ok p) :
    ∀ q ∈ p, q.1 ∈ y := by
  simp only [RFun.classProbabilities, bind, Except.bind] at h
  split at h; · cases h
  next yc hy =>
    split at h; · cases h
    cases h
    intro q hq
    rw [(List.perm_insertionSort _ _).mem_iff] at hq
    obtain ⟨c, hc, rfl⟩ := List.mem_map.1 hq
    exact extract_mem hy _ (counter_mem hc)

theorem bestClass_mem {S : RFun.FloatStr} {p : List (Label × Rat)} {c : Label} (h : RFun.bestClass S p = .ok c) : ∃ q ∈ p, q.1 = c := by
  cases p with
  | nil => cases h
  | cons a p =>
    simp only [RFun.bestClass, Except.ok.injEq] at h
    have key : ∀ (l : List (Label × Rat)) (b : Label × Rat),
        l.foldl (fun best q => if RFun.probaLt S best q then q else best) b ∈ b :: l := by
      intro l
      induction l with
      | nil => simp
      | cons x l ih =>
        intro b
        rw [List.foldl_cons]
        have := ih (if RFun.probaLt S b x then x else b)
        rcases List.mem_cons.1 this with e | e
        · rw [e]; split <;> simp
        · simp [e]
    exact ⟨_, key p a, h⟩

end Verif.Range
