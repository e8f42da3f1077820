import Verif.StackedSpec
import Verif.RFunLemmas
import Verif.VoteLemmas

/-!
# Lemmas about stacked fit: the figures of one column
-/

namespace Verif.RFun

open Verif Spec

/-! ## One column of targets -/

theorem timesText_zero (s : String) : timesText 0 s = "" := rfl

theorem timesText_one (s : String) : timesText 1 s = s := by
  simp [timesText]

theorem mul_one' {x : Num} : Num.mul (.fin ((1 : Nat) : Rat)) x = x := by
  cases x <;> simp [Num.mul, Num.infSign]

theorem mul_zero_nan (x : Num) : (Num.mul (.fin ((0 : Nat) : Rat)) x).beq (.fin 0) = true ∨ Num.mul (.fin ((0 : Nat) : Rat)) x = .nan := by
  cases x <;> simp [Num.mul, Num.infSign, Num.beq, Num.le]

theorem beq_zero {x : Num} (h : x.beq (.fin 0) = true) : x = .fin 0 := by
  cases x <;> simp_all [Num.beq, Num.le]
  exact le_antisymm h.1 h.2

theorem conditionalCell_zero (t : Label) : conditionalCell 0 t = .num .nan := by
  cases t with
  | text s => rfl
  | num x =>
    unfold conditionalCell
    by_cases hx : x.beq (.fin 0) = true
    · simp [hx, timesText_zero]
    · simp only [hx, if_false, Bool.false_eq_true]
      rcases mul_zero_nan x with h | h
      · rw [if_pos h]
      · rw [h]
        simp

theorem conditionalCell_num (x : Num) : conditionalCell 1 (.num x) = .num x := by
  by_cases hx : x.beq (.fin 0) = true
  · rw [beq_zero hx]
    decide +kernel
  · unfold conditionalCell
    simp only [hx, if_false, Bool.false_eq_true, mul_one']

theorem conditionalCell_text {s : String} (h1 : s ≠ "") (h2 : s ≠ "zero") : conditionalCell 1 (.text s) = .text s := by
  simp [conditionalCell, timesText_one, h1, h2]

theorem column_nums (u : List Bool) (ys : List Num) :
    conditionalColumn (arr u) (ys.map .num) = (List.zipWith (fun b x => if b then x else Num.nan) u ys).map Label.num := by
  unfold conditionalColumn arr
  rw [List.zipWith_map, List.map_zipWith]
  congr 1
  funext b x
  cases b
  · exact conditionalCell_zero _
  · exact conditionalCell_num x

theorem dropna_column (u : List Bool) (ys : List Num) :
    Num.dropna (List.zipWith (fun b x => if b then x else Num.nan) u ys) = Num.dropna (activated u ys) := by
  induction u generalizing ys with
  | nil => rfl
  | cons b u ih =>
    cases ys with
    | nil => rfl
    | cons x ys =>
      have := ih ys
      simp only [Num.dropna, activated] at this ⊢
      have hn : Num.isNaN .nan = true := rfl
      cases b
      · simp [this, hn]
      · by_cases hx : x.isNaN = true <;> simp [this, hx]

theorem nanvar_dropna {n : Nat} {l l' : List Num} (h : Num.dropna l = Num.dropna l') : nanvar n l = nanvar n l' := by
  unfold nanvar
  rw [h]

theorem numbers_eq {y : List Label} {ys : List Num} (h : Rule.numbers y = .ok ys) : y = ys.map .num := by
  unfold Rule.numbers at h
  induction y generalizing ys with
  | nil => cases h; rfl
  | cons a y ih =>
    rw [List.mapM_cons] at h
    simp only [bind, Except.bind] at h
    split at h
    · cases h
    rename_i x hx
    split at h
    · cases h
    rename_i l hl
    cases h
    cases a with
    | text s => cases hx
    | num z =>
      cases hx
      rw [List.map_cons, ← ih hl]

/-! ## Mean, deviation, z-score -/

theorem mean_nil : Num.mean [] = .nan := rfl

theorem column_mean {u : List Bool} {ys : List Num} (h : ys.length = u.length) :
    extract (arr u) ys = .ok (activated u ys) ∧ conditionalMean (arr u) ys = .ok (Num.nanmean (activated u ys)) := by
  refine ⟨extract_arr h, ?_⟩
  simp only [conditionalMean, extract_arr h, bind, Except.bind, Num.nanmean]
  split
  · rename_i e
    rw [List.length_eq_zero_iff.1 e]
    rfl
  · rfl

theorem column_var {u : List Bool} {ys : List Num} (h : ys.length = u.length) (h1 : (activated u ys).length ≠ 1) :
    conditionalVar (arr u) ys = .ok (nanvar 1 (activated u ys)) := by
  simp only [conditionalVar, extract_arr h, bind, Except.bind]
  split
  · rename_i e
    rw [List.length_eq_zero_iff.1 e]
    rfl
  · rfl

theorem nones_arr (u : List Bool) : Rule.nones (arr u) = 0 → ∀ {α} (y : List α), activated u y = [] := by
  intro h α y
  simp only [Rule.nones, List.length_eq_zero_iff, List.filter_eq_nil_iff, arr, List.mem_map] at h
  simp only [activated, List.map_eq_nil_iff, List.filter_eq_nil_iff]
  intro p hp hb
  have := h (p.1.toNat) ⟨p.1, (List.of_mem_zip (a := p.1) (b := p.2) hp).1, rfl⟩
  simp [hb] at this

theorem nan_div (x : Num) : Num.div .nan x = .nan := by
  cases x <;> rfl

theorem column_zscore (sqrt : Num → Num) (u : List Bool) (ys : List Num) (hz : Num) :
    Rule.zscoreExternal sqrt (Num.nanmean (activated u ys)) (Rule.nones (arr u)) ys hz =
      Num.div (Num.abs (Num.sub (Num.nanmean (activated u ys)) (Num.nanmean ys)))
        (Num.mul (sqrt (Num.div hz (.fin (Rule.nones (arr u))))) (sqrt (nanvar 0 ys))) := by
  unfold Rule.zscoreExternal
  split
  · rename_i e
    rw [nones_arr u e ys]
    have : Num.nanmean ([] : List Num) = .nan := rfl
    rw [this]
    have : ∀ z, Num.sub .nan z = .nan := by intro z; cases z <;> rfl
    rw [this]
    exact (nan_div _).symm
  · rfl

/-! ## Classes -/

theorem column_classes {u : List Bool} {y : List Label}
    (hc : ∀ c ∈ activated u y, (∃ q, c = .num (.fin q)) ∨ ∃ s, c = .text s ∧ s ≠ "" ∧ s ≠ "zero") :
    (conditionalColumn (arr u) y).filter (fun l => !l.isNaN) = activated u y := by
  induction u generalizing y with
  | nil => rfl
  | cons b u ih =>
    cases y with
    | nil => rfl
    | cons t y =>
      have e : conditionalColumn (arr (b :: u)) (t :: y) = conditionalCell b.toNat t :: conditionalColumn (arr u) y := rfl
      rw [e]
      cases b
      · have ea : activated (false :: u) (t :: y) = activated u y := by simp [activated]
        rw [ea] at hc ⊢
        rw [List.filter_cons_of_neg, ih hc]
        show ¬ (!(conditionalCell 0 t).isNaN) = true
        rw [conditionalCell_zero]
        simp [Label.isNaN, Num.isNaN]
      · have ea : activated (true :: u) (t :: y) = t :: activated u y := by simp [activated]
        rw [ea] at hc ⊢
        have et : conditionalCell (Bool.toNat true) t = t ∧ t.isNaN = false := by
          rcases hc t (by simp) with ⟨q, rfl⟩ | ⟨s, rfl, h1, h2⟩
          · exact ⟨conditionalCell_num _, rfl⟩
          · exact ⟨conditionalCell_text h1 h2, rfl⟩
        rw [et.1, List.filter_cons_of_pos (by simp [et.2]), ih fun c h => hc c (by simp [h])]

theorem foldl_max_le (l : List (Label × Nat)) (a : Nat) : a ≤ l.foldl (fun m p => Nat.max m p.2) a ∧
    ∀ p ∈ l, p.2 ≤ l.foldl (fun m p => Nat.max m p.2) a := by
  induction l generalizing a with
  | nil => simp
  | cons x l ih =>
    simp only [List.foldl_cons]
    obtain ⟨h1, h2⟩ := ih (Nat.max a x.2)
    refine ⟨(Nat.le_max_left _ _).trans h1, ?_⟩
    intro p hp
    rcases List.mem_cons.1 hp with rfl | hp
    · exact (Nat.le_max_right _ _).trans h1
    · exact h2 p hp

/-- The most frequent classes -/
theorem mem_commonClasses {u : List Bool} {y : List Label}
    (hc : ∀ c ∈ activated u y, (∃ q, c = .num (.fin q)) ∨ ∃ s, c = .text s ∧ s ≠ "" ∧ s ≠ "zero") {c : Label}
    (h : c ∈ commonClasses (arr u) y) : c ∈ activated u y ∧ ∀ d ∈ activated u y, (activated u y).count d ≤ (activated u y).count c := by
  unfold commonClasses classCounts at h
  rw [column_classes hc] at h
  have cls : ∀ c ∈ activated u y, IsClass c := fun c h => (hc c h).imp id fun ⟨s, e, _⟩ => ⟨s, e⟩
  have hcount := counter_counts cls
  simp only [List.mem_map, List.mem_filter, decide_eq_true_eq] at h
  obtain ⟨p, ⟨hp, hm⟩, rfl⟩ := h
  refine ⟨(hcount.mem _).1 (List.mem_map_of_mem hp), fun d hd => ?_⟩
  obtain ⟨q, hq, rfl⟩ := List.mem_map.1 ((hcount.mem d).2 hd)
  rw [← hcount.count q hq, ← hcount.count p hp, hm]
  exact (foldl_max_le _ 0).2 q hq

theorem commonClasses_mem {u : List Bool} {y : List Label}
    (hc : ∀ c ∈ activated u y, (∃ q, c = .num (.fin q)) ∨ ∃ s, c = .text s ∧ s ≠ "" ∧ s ≠ "zero") {c : Label}
    (h : c ∈ activated u y) (hm : ∀ d ∈ activated u y, (activated u y).count d ≤ (activated u y).count c) :
    c ∈ commonClasses (arr u) y := by
  unfold commonClasses classCounts
  rw [column_classes hc]
  have cls : ∀ c ∈ activated u y, IsClass c := fun c h => (hc c h).imp id fun ⟨s, e, _⟩ => ⟨s, e⟩
  have hcount := counter_counts cls
  obtain ⟨p, hp, rfl⟩ := List.mem_map.1 ((hcount.mem c).2 h)
  simp only [List.mem_map, List.mem_filter, decide_eq_true_eq]
  refine ⟨p, ⟨hp, ?_⟩, rfl⟩
  refine le_antisymm ((foldl_max_le _ 0).2 p hp) ?_
  have key : ∀ (l : List (Label × Nat)) (a : Nat), a ≤ p.2 → (∀ q ∈ l, q.2 ≤ p.2) → l.foldl (fun m p => Nat.max m p.2) a ≤ p.2 := by
    intro l
    induction l with
    | nil => intro a ha _; exact ha
    | cons x l ih =>
      intro a ha hq
      exact ih _ (Nat.max_le.2 ⟨ha, hq x (by simp)⟩) fun q h => hq q (by simp [h])
  refine key _ 0 (Nat.zero_le _) fun q hq => ?_
  rw [hcount.count q hq, hcount.count p hp]
  exact hm _ ((hcount.mem _).1 (List.mem_map_of_mem hq))

theorem firstClass_ok {l : List Label} {c : Label} (h : firstClass l = .ok c) : c ∈ l ∧ ∀ d ∈ l, labelLe c d = true := by
  unfold firstClass at h
  split at h
  · cases h
  have perm : (l.insertionSort fun a b => labelLe a b = true).Perm l := List.perm_insertionSort _ _
  haveI : Std.Total (fun a b : Label => labelLe a b = true) := ⟨labelLe_total⟩
  haveI : IsTrans Label (fun a b : Label => labelLe a b = true) := ⟨fun _ _ _ => labelLe_trans⟩
  have hs : (l.insertionSort fun a b => labelLe a b = true).Pairwise fun a b => labelLe a b = true := List.pairwise_insertionSort _ _
  generalize l.insertionSort (fun a b => labelLe a b = true) = l' at h perm hs
  cases l' with
  | nil => cases h
  | cons x rest =>
    cases h
    refine ⟨perm.mem_iff.1 (by simp), fun d hd => ?_⟩
    rcases List.mem_cons.1 (perm.mem_iff.2 hd) with rfl | hd
    · rcases labelLe_total d d with h | h <;> exact h
    · exact (List.pairwise_cons.1 hs).1 d hd

theorem PlainClasses.each {S : FloatStr} {l : List Label} (h : PlainClasses S l) :
    ∀ c ∈ l, (∃ q, c = .num (.fin q)) ∨ ∃ s, c = .text s ∧ s ≠ "" ∧ s ≠ "zero" := by
  intro c hc
  rcases h with h | ⟨h, -⟩
  · exact .inl (h c hc)
  · exact .inr (h c hc)

theorem PlainClasses.sameType {S : FloatStr} {l : List Label} (h : PlainClasses S l) : SameType l := by
  rcases h with h | ⟨h, -⟩
  · exact .inl h
  · exact .inr fun c hc => let ⟨s, e, _⟩ := h c hc; ⟨s, e⟩

theorem PlainClasses.ordered {S : FloatStr} {l : List Label} (h : PlainClasses S l) {p : List (Label × Rat)} (hf : Frequencies p l) :
    ∀ a ∈ p, ∀ b ∈ p, probaLt S a b = true ↔ a.2 < b.2 := by
  rcases h with h | ⟨h, hS⟩
  · intro a ha b hb
    obtain ⟨q, e⟩ := h a.1 ((hf.mem _).1 (List.mem_map_of_mem ha))
    obtain ⟨a1, a2⟩ := a
    simp only at e
    subst e
    simp [probaLt]
  · exact probaLt_texts (fun c hc => let ⟨s, e, _⟩ := h c hc; ⟨s, e⟩) hS hf

/-- The two ways to choose a class agree. -/
theorem class_agree {S : FloatStr} {u : List Bool} {y : List Label} {l : Label} (hl : y.length = u.length)
    (hc : PlainClasses S (activated u y)) (h : firstClass (commonClasses (arr u) y) = .ok l) {p : List (Label × Rat)}
    (hp : classProbabilities (arr u) y = .ok p) : bestClass S p = .ok l := by
  obtain ⟨h1, h2⟩ := firstClass_ok h
  obtain ⟨h3, h4⟩ := mem_commonClasses (PlainClasses.each hc) h1
  have hne : activated u y ≠ [] := List.ne_nil_of_mem h3
  obtain ⟨p', hp', hf⟩ := classProbabilities_spec hl (PlainClasses.sameType hc) hne
  rw [hp] at hp'
  cases hp'
  obtain ⟨c, hb, c1, c2, c3⟩ := bestClass_frequencies hf hne (PlainClasses.ordered hc hf)
  rw [hb]
  have pos : (0 : Rat) < (activated u y).length := by
    have := List.length_pos_of_mem h3
    exact_mod_cast this
  have cmax : ∀ d ∈ activated u y, (activated u y).count d ≤ (activated u y).count c := by
    intro d hd
    have := c2 d hd
    unfold frequency at this
    rw [div_le_div_iff_of_pos_right pos] at this
    exact_mod_cast this
  have hle := h2 c (commonClasses_mem (PlainClasses.each hc) c1 cmax)
  by_cases hlc : l = c
  · rw [hlc]
  exfalso
  have cls := sameType_isClass (PlainClasses.sameType hc)
  have hlt := classLt_of_le (cls l h3) (cls c c1) (by
    rcases PlainClasses.sameType hc with ht | ht
    · obtain ⟨a, ha⟩ := ht l h3
      obtain ⟨b, hb⟩ := ht c c1
      exact .inl ⟨_, _, ha, hb⟩
    · obtain ⟨a, ha⟩ := ht l h3
      obtain ⟨b, hb⟩ := ht c c1
      exact .inr ⟨_, _, ha, hb⟩) hle hlc
  have := c3 l h3 hlt
  unfold frequency at this
  rw [div_lt_div_iff_of_pos_right pos] at this
  have h5 := h4 c c1
  have h6 : (activated u y).count l < (activated u y).count c := by exact_mod_cast this
  omega

end Verif.RFun
