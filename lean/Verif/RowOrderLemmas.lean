import Verif.RowOrderSpec
import Verif.RFunLemmas
import Verif.RuleLemmas

/-!
# Lemmas: the order of the rows does not matter
-/

namespace Verif.RowOrder

open Verif Spec RFun

variable {α β γ : Type}

/-! ## Numbers -/

theorem add_comm' (a b : Num) : Num.add a b = Num.add b a := by
  cases a <;> cases b <;> simp [Num.add, add_comm]

theorem add_assoc' (a b c : Num) : Num.add (Num.add a b) c = Num.add a (Num.add b c) := by
  cases a <;> cases b <;> cases c <;> simp [Num.add, add_assoc]

theorem sum_perm {l l' : List Num} (h : l.Perm l') : Num.sum l = Num.sum l' := by
  unfold Num.sum
  apply h.foldl_eq' (comm := ?_)
  intro x _ y _ z
  rw [add_assoc', add_comm' x y, ← add_assoc']

theorem mean_perm {l l' : List Num} (h : l.Perm l') : Num.mean l = Num.mean l' := by
  unfold Num.mean
  rw [sum_perm h, h.length_eq]

theorem dropna_perm {l l' : List Num} (h : l.Perm l') : (Num.dropna l).Perm (Num.dropna l') := h.filter _

theorem nanmean_perm {l l' : List Num} (h : l.Perm l') : Num.nanmean l = Num.nanmean l' := mean_perm (dropna_perm h)

theorem nanvar_perm {l l' : List Num} (h : l.Perm l') (k : Nat) : nanvar k l = nanvar k l' := by
  unfold nanvar
  have hd := dropna_perm h
  simp only
  rw [hd.length_eq, mean_perm hd, sum_perm (hd.map _)]

theorem le_antisymm' {a b : Num} (h : a.le b = true) (h' : b.le a = true) : a = b := by
  cases a <;> cases b <;> simp_all [Num.le]
  exact le_antisymm h h'

/-- The order of the model, with NaN last -/
def leLast (a b : Num) : Prop := (a.le b || b.isNaN) = true

instance : DecidableRel leLast := fun a b => inferInstanceAs (Decidable (_ = true))
instance : Std.Total leLast := ⟨fun a b => labelLe_total (.num a) (.num b)⟩
instance : IsTrans _ leLast := ⟨fun a b c => labelLe_trans (a := .num a) (b := .num b) (c := .num c)⟩

theorem sorted_le {l : List Num} (hl : ∀ x ∈ l, x ≠ .nan) : (l.insertionSort fun a b => a.le b = true).Pairwise fun a b => a.le b = true := by
  have hiff : ∀ a b : Num, b ≠ .nan → (leLast a b ↔ a.le b = true) := by
    intro a b hb
    unfold leLast
    cases b with
    | nan => exact absurd rfl hb
    | _ => simp [Num.isNaN]
  have e : (l.insertionSort fun a b => a.le b = true) = l.insertionSort leLast := by
    have := List.map_insertionSort (r := fun a b : Num => a.le b = true) (s := leLast) id l (fun a _ b hb => (hiff a b (hl b hb)).symm)
    simpa using this
  rw [e]
  refine (List.pairwise_insertionSort leLast l).imp_of_mem ?_
  intro a b _ hb h
  exact (hiff a b (hl b ((List.perm_insertionSort _ _).mem_iff.1 hb))).1 h

theorem median_perm {l l' : List Num} (h : l.Perm l') : median l = median l' := by
  unfold median
  have ha : l.any Num.isNaN = l'.any Num.isNaN := by
    rw [Bool.eq_iff_iff, List.any_eq_true, List.any_eq_true]
    exact ⟨fun ⟨x, hx, e⟩ => ⟨x, h.mem_iff.1 hx, e⟩, fun ⟨x, hx, e⟩ => ⟨x, h.mem_iff.2 hx, e⟩⟩
  rw [ha]
  split
  · rfl
  · rename_i hn
    have hl' : ∀ x ∈ l', x ≠ .nan := by
      rintro x hx rfl
      exact hn (List.any_eq_true.2 ⟨_, hx, rfl⟩)
    have hl : ∀ x ∈ l, x ≠ .nan := fun x hx => hl' x (h.mem_iff.1 hx)
    have e : (l.insertionSort fun a b => a.le b = true) = l'.insertionSort fun a b => a.le b = true := by
      refine List.Perm.eq_of_pairwise (le := fun a b => a.le b = true) (fun a b _ _ => le_antisymm') (sorted_le hl) (sorted_le hl')
        ((List.perm_insertionSort _ _).trans (h.trans (List.perm_insertionSort _ _).symm))
    rw [e]

/-! ## Vectors -/

theorem extract_zip {v : List Nat} {y : List α} (h : v.length = y.length) :
    extract v y = .ok (((v.zip y).filter fun p => decide (p.1 ≠ 0)).map (·.2)) := by
  induction v generalizing y with
  | nil => rfl
  | cons a v ih =>
    cases y with
    | nil => simp at h
    | cons x y =>
      unfold extract
      rw [ih (by simpa using h), Except.map]
      by_cases ha : a = 0
      · simp [ha]
      · simp [ha]

/-- Equal length and the same pairs -/
def SamePairs (v : List α) (y : List β) (v' : List α) (y' : List β) : Prop :=
  v.length = y.length ∧ v'.length = y'.length ∧ (v.zip y).Perm (v'.zip y')

theorem SamePairs.left {v v' : List α} {y y' : List β} (h : SamePairs v y v' y') : v.Perm v' := by
  have := h.2.2.map Prod.fst
  rwa [List.map_fst_zip (by rw [h.1]), List.map_fst_zip (by rw [h.2.1])] at this

theorem SamePairs.right {v v' : List α} {y y' : List β} (h : SamePairs v y v' y') : y.Perm y' := by
  have := h.2.2.map Prod.snd
  rwa [List.map_snd_zip (by rw [h.1]), List.map_snd_zip (by rw [h.2.1])] at this

theorem SamePairs.map {v v' : List α} {y y' : List β} (h : SamePairs v y v' y') (f : α → γ) {δ : Type} (g : β → δ) :
    SamePairs (v.map f) (y.map g) (v'.map f) (y'.map g) := by
  refine ⟨by simpa using h.1, by simpa using h.2.1, ?_⟩
  rw [List.zip_map, List.zip_map]
  exact h.2.2.map _

theorem extract_pairs {v v' : List Nat} {y y' : List β} (h : SamePairs v y v' y') :
    ∃ l l', extract v y = .ok l ∧ extract v' y' = .ok l' ∧ l.Perm l' :=
  ⟨_, _, extract_zip h.1, extract_zip h.2.1, (h.2.2.filter _).map _⟩

theorem zipWith_pairs {v v' : List α} {y y' : List β} (h : SamePairs v y v' y') (f : α → β → γ) :
    (List.zipWith f v y).Perm (List.zipWith f v' y') := by
  have e : ∀ (a : List α) (b : List β), List.zipWith f a b = (a.zip b).map fun p => f p.1 p.2 := by
    intro a b
    simp [List.zip, List.map_zipWith]
  rw [e, e]
  exact h.2.2.map _

/-! ## Figures -/

theorem conditionalMean_order {v v' : List Nat} {y y' : List Num} (h : SamePairs v y v' y') : conditionalMean v y = conditionalMean v' y' := by
  obtain ⟨l, l', h1, h2, hp⟩ := extract_pairs h
  have hd := dropna_perm hp
  unfold conditionalMean
  simp only [bind, Except.bind, h1, h2]
  rw [hd.length_eq, mean_perm hd]

theorem conditionalVar_order {v v' : List Nat} {y y' : List Num} (h : SamePairs v y v' y') : conditionalVar v y = conditionalVar v' y' := by
  obtain ⟨l, l', h1, h2, hp⟩ := extract_pairs h
  unfold conditionalVar
  simp only [bind, Except.bind, h1, h2]
  rw [hp.length_eq, nanvar_perm hp]

theorem nones_perm {v v' : List Nat} (h : v.Perm v') : Rule.nones v = Rule.nones v' := by
  unfold Rule.nones
  rw [(h.filter _).length_eq]

theorem zscore_order {sqrt : Num → Num} {p : Num} {v v' : List Nat} {y y' : List Num} (h : SamePairs v y v' y') (k : Num) :
    Rule.zscoreExternal sqrt p (Rule.nones v) y k = Rule.zscoreExternal sqrt p (Rule.nones v') y' k := by
  unfold Rule.zscoreExternal
  rw [nones_perm h.left, nanmean_perm h.right, nanvar_perm h.right]

theorem errors_order {p p' y y' : List Num} (h : SamePairs p y p' y') :
    ∃ e e', errors p y = .ok e ∧ errors p' y' = .ok e' ∧ e.Perm e' := by
  refine ⟨_, _, by unfold errors; rw [if_neg (by simpa using h.1)], by unfold errors; rw [if_neg (by simpa using h.2.1)], zipWith_pairs h _⟩

theorem criterion_order {p p' y y' : List Num} (h : SamePairs p y p' y') (m : String) : regressionCriterion m p y = regressionCriterion m p' y' := by
  obtain ⟨e, e', h1, h2, hp⟩ := errors_order h
  have hmse : mse p y = mse p' y' := by
    unfold mse
    simp only [bind, Except.bind, h1, h2, nanmean_perm (hp.map _)]
  have hmae : mae p y = mae p' y' := by
    unfold mae
    simp only [bind, Except.bind, h1, h2, nanmean_perm (hp.map _)]
  unfold regressionCriterion mseNorm maeNorm aae
  rw [hmse, hmae, mean_perm h.right, mean_perm (h.right.map _), median_perm h.right, mean_perm (h.right.map _), mean_perm (h.right.map _)]

theorem successRate_order {p : Label} {y y' : List Label} (h : y.Perm y') : successRate p y = successRate p y' := by
  unfold successRate
  rw [h.length_eq, (h.filter _).length_eq]

theorem classificationCriterion_order {m : String} {p : Label} {v v' : List Nat} {y y' : List Label} (h : SamePairs v y v' y') :
    classificationCriterion m v p y = classificationCriterion m v' p y' := by
  obtain ⟨l, l', h1, h2, hp⟩ := extract_pairs h
  unfold classificationCriterion
  simp only [bind, Except.bind, h1, h2, successRate_order hp]

/-! ## Classes -/

/-- One turn of `Counter` -/
def countStep (acc : List (Label × Nat)) (x : Label) : List (Label × Nat) :=
  if acc.any (fun p => p.1.eq x) then acc.map (fun p => if p.1.eq x then (p.1, p.2 + 1) else p) else acc ++ [(x, 1)]

theorem counter_eq (l : List Label) : counter l = l.foldl countStep [] := rfl

theorem label_eq {a b : Label} (h : a.eq b = true) : a = b := by
  cases a with
  | num x =>
    cases b with
    | num y =>
      unfold Label.eq Num.beq at h
      rw [Bool.and_eq_true] at h
      rw [le_antisymm' h.1 h.2]
    | text t => cases h
  | text s =>
    cases b with
    | num y => cases h
    | text t =>
      have : s = t := of_decide_eq_true h
      rw [this]

theorem any_perm {l l' : List α} (h : l.Perm l') (p : α → Bool) : l.any p = l'.any p := by
  rw [Bool.eq_iff_iff, List.any_eq_true, List.any_eq_true]
  exact ⟨fun ⟨x, hx, e⟩ => ⟨x, h.mem_iff.1 hx, e⟩, fun ⟨x, hx, e⟩ => ⟨x, h.mem_iff.2 hx, e⟩⟩

theorem countStep_perm {acc acc' : List (Label × Nat)} (h : acc.Perm acc') (x : Label) : (countStep acc x).Perm (countStep acc' x) := by
  unfold countStep
  rw [any_perm h]
  split
  · exact h.map _
  · exact h.append_right _

theorem any_step {acc : List (Label × Nat)} {x y : Label} (hxy : x.eq y = false) :
    (countStep acc x).any (fun p => p.1.eq y) = acc.any fun p => p.1.eq y := by
  unfold countStep
  split
  · rw [List.any_map]
    congr 1
    funext p
    simp only [Function.comp]
    split <;> rfl
  · simp [hxy]

theorem eq_symm' (x y : Label) : x.eq y = y.eq x := by
  cases x <;> cases y <;> simp [Label.eq, Num.beq, Bool.and_comm, eq_comm]

theorem countStep_comm (acc : List (Label × Nat)) (x y : Label) : (countStep (countStep acc x) y).Perm (countStep (countStep acc y) x) := by
  cases hxy : x.eq y with
  | true => rw [label_eq hxy]
  | false =>
    have hyx : y.eq x = false := by rw [eq_symm']; exact hxy
    have e1 := any_step (acc := acc) hxy
    have e2 := any_step (acc := acc) hyx
    rw [countStep, e1, countStep.eq_def (countStep acc y) x, e2]
    unfold countStep
    by_cases hx : (acc.any fun p => p.1.eq x) = true
    · by_cases hy : (acc.any fun p => p.1.eq y) = true
      · simp only [if_pos hx, if_pos hy, List.map_map]
        apply List.Perm.of_eq
        congr 1
        funext p
        simp only [Function.comp]
        by_cases h1 : p.1.eq x = true
        · have : p.1.eq y = false := by rw [label_eq h1]; exact hxy
          simp [h1, this]
        · by_cases h2 : p.1.eq y = true <;> simp [h1, h2]
      · simp only [if_pos hx, if_neg hy, List.map_append, List.map_cons, List.map_nil, hyx]
        exact List.Perm.refl _
    · by_cases hy : (acc.any fun p => p.1.eq y) = true
      · simp only [if_neg hx, if_pos hy, List.map_append, List.map_cons, List.map_nil, hxy]
        exact List.Perm.refl _
      · simp only [if_neg hx, if_neg hy, List.append_assoc]
        exact List.Perm.append_left _ (List.Perm.swap _ _ _)

theorem foldl_countStep_perm {l : List Label} {acc acc' : List (Label × Nat)} (h : acc.Perm acc') :
    (l.foldl countStep acc).Perm (l.foldl countStep acc') := by
  induction l generalizing acc acc' with
  | nil => exact h
  | cons x l ih => exact ih (countStep_perm h x)

theorem counter_perm {l l' : List Label} (h : l.Perm l') : (counter l).Perm (counter l') := by
  rw [counter_eq, counter_eq]
  have key : ∀ {l l' : List Label}, l.Perm l' → ∀ acc, (l.foldl countStep acc).Perm (l'.foldl countStep acc) := by
    intro l l' h
    induction h with
    | nil => exact fun _ => .refl _
    | cons x _ ih => exact fun acc => ih _
    | swap x y l => exact fun acc => foldl_countStep_perm (countStep_comm _ _ _)
    | trans _ _ ih1 ih2 => exact fun acc => (ih1 acc).trans (ih2 acc)
  exact key h []

/-- Entries with one class are equal. -/
def OneCount (acc : List (Label × Nat)) : Prop := ∀ p ∈ acc, ∀ q ∈ acc, p.1 = q.1 → p = q

theorem label_refl {x : Label} (h : x.isNaN = false) : x.eq x = true := by
  cases x with
  | text s => simp [Label.eq]
  | num x =>
    unfold Label.eq Num.beq
    cases x with
    | nan => cases h
    | _ => simp [Num.le]

theorem nan_eq {x y : Label} (h : x.isNaN = true) : y.eq x = false := by
  cases x with
  | text s => cases h
  | num x =>
    cases x with
    | nan =>
      cases y with
      | text t => rfl
      | num y => cases y <;> rfl
    | _ => cases h

theorem counter_oneCount (l : List Label) : OneCount (counter l) := by
  rw [counter_eq]
  have key : ∀ (acc : List (Label × Nat)), OneCount acc ∧ (∀ p ∈ acc, p.1.isNaN = true → p.2 = 1) →
      OneCount (l.foldl countStep acc) ∧ (∀ p ∈ l.foldl countStep acc, p.1.isNaN = true → p.2 = 1) := by
    induction l with
    | nil => exact fun _ h => h
    | cons x l ih =>
      intro acc ⟨h1, h2⟩
      apply ih
      unfold countStep
      split
      · rename_i hx
        have hnx : x.isNaN = false := by
          obtain ⟨p, _, hp⟩ := List.any_eq_true.1 hx
          by_contra hn
          rw [nan_eq (by simpa using hn)] at hp
          cases hp
        refine ⟨?_, ?_⟩
        · intro p hp q hq e
          obtain ⟨p', hp', rfl⟩ := List.mem_map.1 hp
          obtain ⟨q', hq', rfl⟩ := List.mem_map.1 hq
          have e' : p'.1 = q'.1 := by
            revert e
            split <;> split <;> exact id
          rw [h1 p' hp' q' hq' e']
        · intro p hp hn
          obtain ⟨p', hp', rfl⟩ := List.mem_map.1 hp
          split at hn
          · rename_i hpx
            rw [label_eq hpx] at hn
            rw [hnx] at hn
            cases hn
          · rename_i hpx
            rw [if_neg hpx]
            exact h2 p' hp' hn
      · rename_i hx
        have hno : ∀ p ∈ acc, p.1 = x → x.isNaN = true := by
          intro p hp e
          by_contra hn
          exact hx (List.any_eq_true.2 ⟨p, hp, by rw [e]; exact label_refl (by simpa using hn)⟩)
        refine ⟨?_, ?_⟩
        · intro p hp q hq e
          rcases List.mem_append.1 hp with hp | hp <;> rcases List.mem_append.1 hq with hq | hq
          · exact h1 p hp q hq e
          · rw [List.mem_singleton] at hq
            subst hq
            have hn := hno p hp e
            exact Prod.ext e (h2 p hp (by rw [e]; exact hn))
          · rw [List.mem_singleton] at hp
            subst hp
            have hn := hno q hq e.symm
            exact Prod.ext e (h2 q hq (by rw [← e]; exact hn)).symm
          · rw [List.mem_singleton] at hp hq
            rw [hp, hq]
        · intro p hp hn
          rcases List.mem_append.1 hp with hp | hp
          · exact h2 p hp hn
          · rw [List.mem_singleton] at hp
            rw [hp]
  exact (key [] ⟨fun p hp => absurd hp (by simp), fun p hp => absurd hp (by simp)⟩).1

theorem labelLe_antisymm {a b : Label} (h : labelLe a b = true) (h' : labelLe b a = true) : a = b := by
  cases a with
  | text s =>
    cases b with
    | text t => 
      unfold labelLe at h h'
      exact congrArg Label.text (String.le_antisymm (of_decide_eq_true h) (of_decide_eq_true h'))
    | num y => cases h
  | num x =>
    cases b with
    | text t => cases h'
    | num y =>
      unfold labelLe at h h'
      congr 1
      cases x <;> cases y <;> simp_all [Num.le, Num.isNaN]
      exact le_antisymm h h'

theorem classProbabilities_order {v v' : List Nat} {y y' : List Label} (h : SamePairs v y v' y') :
    classProbabilities v y = classProbabilities v' y' := by
  obtain ⟨l, l', h1, h2, hp⟩ := extract_pairs h
  unfold classProbabilities
  simp only [bind, Except.bind, h1, h2]
  have hc := counter_perm hp
  rw [hp.length_eq]
  have hm := hc.map fun p : Label × Nat => (p.1, (p.2 : Rat) / (l'.length : Rat))
  rw [hm.length_eq]
  split
  · rfl
  · congr 1
    have hs : ∀ l : List (Label × Rat), (l.insertionSort fun a b => labelLe a.1 b.1 = true).Pairwise fun a b => labelLe a.1 b.1 = true := by
      intro l
      haveI : Std.Total fun a b : Label × Rat => labelLe a.1 b.1 = true := ⟨fun a b => labelLe_total a.1 b.1⟩
      haveI : IsTrans (Label × Rat) fun a b => labelLe a.1 b.1 = true := ⟨fun a b c => labelLe_trans⟩
      exact List.pairwise_insertionSort _ _
    refine List.Perm.eq_of_pairwise (le := fun a b : Label × Rat => labelLe a.1 b.1 = true) ?_ (hs _) (hs _)
      ((List.perm_insertionSort _ _).trans (hm.trans (List.perm_insertionSort _ _).symm))
    intro a b ha hb hab hba
    have ha := ((List.perm_insertionSort _ _).mem_iff).1 ha
    have hb := hm.mem_iff.2 (((List.perm_insertionSort _ _).mem_iff).1 hb)
    obtain ⟨p, hp, rfl⟩ := List.mem_map.1 ha
    obtain ⟨q, hq, rfl⟩ := List.mem_map.1 hb
    rw [counter_oneCount l p hp q hq (labelLe_antisymm hab hba)]

/-! ## Evaluating a condition row by row -/

/-- The outcome is computed row by row: always the same exception, or a function of the row. -/
def RowWise (m : List (List Num) → Except Err (List Nat)) : Prop :=
  (∃ e, ∀ rows, m rows = .error e) ∨ ∃ f : List Num → Bool, ∀ rows, m rows = .ok (rows.map fun r => (f r).toNat)

theorem rowWise_loop {ι : Type} {step : List (List Num) → List Nat → ι → Except Err (List Nat)}
    (h : ∀ x (m : List Num → Bool), RowWise fun rows => step rows (rows.map fun r => (m r).toNat) x) (l : List ι) (m : List Num → Bool) :
    RowWise fun rows => l.foldlM (step rows) (rows.map fun r => (m r).toNat) := by
  induction l generalizing m with
  | nil => exact .inr ⟨m, fun _ => rfl⟩
  | cons x l ih =>
    rcases h x m with ⟨e, he⟩ | ⟨f, hf⟩
    · exact .inl ⟨e, fun rows => by beta_reduce at he ⊢; rw [List.foldlM_cons, he]; rfl⟩
    · rcases ih f with ⟨e, he⟩ | ⟨g, hg⟩
      · exact .inl ⟨e, fun rows => by beta_reduce at hf ⊢; rw [List.foldlM_cons, hf]; exact he rows⟩
      · exact .inr ⟨g, fun rows => by beta_reduce at hf ⊢; rw [List.foldlM_cons, hf]; exact hg rows⟩

theorem toNat_and (a b : Bool) : a.toNat &&& b.toNat = (a && b).toNat := by
  cases a <;> cases b <;> rfl

theorem maskWith_map (rows : List (List Num)) (m : List Num → Bool) (test : Num → Bool) (col : List Num → Num) :
    Cond.maskWith (rows.map fun r => (m r).toNat) test (rows.map col) = rows.map fun r => (m r && test (col r)).toNat := by
  unfold Cond.maskWith
  rw [List.zipWith_map, List.zipWith_self]
  simp only [toNat_and]

theorem conj_map (rows : List (List Num)) (m n : List Num → Bool) :
    Cond.conj (rows.map fun r => (m r).toNat) (rows.map fun r => (n r).toNat) = rows.map fun r => (m r && n r).toNat := by
  unfold Cond.conj
  rw [List.zipWith_map, List.zipWith_self]
  simp only [toNat_and]

theorem rowWise_step {c : Cond} {k : Nat} {column : List (List Num) → Except Err (List Num)}
    (h : (∃ e, ∀ rows, column rows = .error e) ∨ ∃ f : List Num → Num, ∀ rows, column rows = .ok (rows.map f)) (m : List Num → Bool) :
    RowWise fun rows => Cond.evalStep c (rows.map fun r => (m r).toNat) k (column rows) := by
  unfold Cond.evalStep
  rcases h with ⟨e, he⟩ | ⟨f, hf⟩
  · exact .inl ⟨e, fun rows => by beta_reduce; rw [he]; rfl⟩
  · simp only [bind, Except.bind, hf]
    cases Cond.need c.bmins with
    | error e => exact .inl ⟨e, fun rows => rfl⟩
    | ok los =>
      simp only
      cases Cond.item los k with
      | error e => exact .inl ⟨e, fun rows => rfl⟩
      | ok lo =>
        simp only
        cases Cond.need c.bmaxs with
        | error e => exact .inl ⟨e, fun rows => rfl⟩
        | ok his =>
          simp only
          cases Cond.item his k with
          | error e => exact .inl ⟨e, fun rows => rfl⟩
          | ok hi =>
            simp only [maskWith_map]
            exact .inr ⟨_, fun rows => rfl⟩

theorem evaluate_rows (c : Cond) (n : Nat) : RowWise fun rows => c.evaluate ⟨n, rows⟩ := by
  unfold Cond.evaluate
  cases c.impossible with
  | true => exact .inr ⟨fun _ => false, fun rows => by simp⟩
  | false =>
    simp only [bind, Except.bind, Bool.false_eq_true, if_false]
    cases Cond.need c.indexes with
    | error e => exact .inl ⟨e, fun rows => rfl⟩
    | ok idx =>
      simp only
      by_cases hany : (idx.any fun i => decide (i ≥ (n : Int))) = true
      · simp only [if_pos hany]
        exact .inl ⟨_, fun rows => rfl⟩
      · simp only [if_neg hany]
        have key := rowWise_loop (step := fun rows mask (p : Int × Nat) => Cond.evalStep c mask p.2 (Cond.Mat.column ⟨n, rows⟩ p.1))
          (fun p m => rowWise_step (by
            unfold Cond.Mat.column
            simp only
            cases Cond.wrap n p.1 with
            | none => exact .inl ⟨_, fun _ => rfl⟩
            | some k => exact .inr ⟨_, fun _ => rfl⟩) m) idx.zipIdx (fun _ => true)
        simp only [Bool.toNat_true] at key
        rcases key with ⟨e, he⟩ | ⟨f, hf⟩
        · exact .inl ⟨e, fun rows => by beta_reduce at he ⊢; rw [← List.map_const']; rw [he rows]⟩
        · exact .inr ⟨fun r => f r && f r && f r, fun rows => by beta_reduce at hf ⊢; rw [← List.map_const']; rw [hf rows]; simp only [conj_map]⟩

theorem evaluateFrame_rows (c : Cond) (cols : List String) : RowWise fun rows => c.evaluateFrame ⟨cols, rows⟩ := by
  unfold Cond.evaluateFrame
  cases c.impossible with
  | true => exact .inr ⟨fun _ => false, fun rows => by simp⟩
  | false =>
    simp only [bind, Except.bind, Bool.false_eq_true, if_false]
    cases Cond.need c.names with
    | error e => exact .inl ⟨e, fun rows => rfl⟩
    | ok na =>
      simp only
      by_cases hany : (na.any fun n => decide (n ∉ cols)) = true
      · simp only [if_pos hany]
        exact .inl ⟨_, fun rows => rfl⟩
      · simp only [if_neg hany]
        have key := rowWise_loop (step := fun rows mask (p : String × Nat) => Cond.evalStep c mask p.2 (Cond.Frame.column ⟨cols, rows⟩ p.1))
          (fun p m => rowWise_step (by
            unfold Cond.Frame.column
            simp only
            split
            · exact .inr ⟨_, fun _ => rfl⟩
            · exact .inl ⟨_, fun _ => rfl⟩) m) na.zipIdx (fun _ => true)
        simp only [Bool.toNat_true] at key
        rcases key with ⟨e, he⟩ | ⟨f, hf⟩
        · exact .inl ⟨e, fun rows => by beta_reduce at he ⊢; rw [← List.map_const']; rw [he rows]⟩
        · by_cases hna : na = []
          · exact .inl ⟨.attributeError, fun rows => by beta_reduce at hf ⊢; rw [← List.map_const']; rw [hf rows]; simp only [if_pos hna]⟩
          · exact .inr ⟨fun r => f r && f r && f r, fun rows => by beta_reduce at hf ⊢; rw [← List.map_const']; rw [hf rows]; simp only [if_neg hna, conj_map]⟩

/-- The rows of the features -/
def rowsOf : Xs → List (List Num)
  | .arr m => m.rows
  | .frame f => f.rows

theorem SamePoints.pairs {xs xs' : Xs} {y y' : List Label} (h : SamePoints xs y xs' y') : SamePairs (rowsOf xs) y (rowsOf xs') y' := by
  cases xs with
  | arr m =>
    cases xs' with
    | frame f => exact h.elim
    | arr m' => exact h.2
  | frame f =>
    cases xs' with
    | arr m => exact h.elim
    | frame f' => exact h.2

/-- The same exception, or one decision about each row -/
theorem evaluate_both {xs xs' : Xs} {y y' : List Label} (h : SamePoints xs y xs' y') (c : Cond) :
    (∃ e, Rule.evaluate c xs = .error e ∧ Rule.evaluate c xs' = .error e) ∨
      ∃ f : List Num → Bool, Rule.evaluate c xs = .ok ((rowsOf xs).map fun r => (f r).toNat) ∧
        Rule.evaluate c xs' = .ok ((rowsOf xs').map fun r => (f r).toNat) := by
  cases xs with
  | arr m =>
    cases xs' with
    | frame f => exact h.elim
    | arr m' =>
      obtain ⟨n, rows⟩ := m
      obtain ⟨n', rows'⟩ := m'
      obtain ⟨rfl, h1, h2, hp⟩ := h
      rcases evaluate_rows c n with ⟨e, he⟩ | ⟨f, hf⟩
      · exact .inl ⟨e, he rows, he rows'⟩
      · exact .inr ⟨f, hf rows, hf rows'⟩
  | frame f =>
    cases xs' with
    | arr m => exact h.elim
    | frame f' =>
      obtain ⟨n, rows⟩ := f
      obtain ⟨n', rows'⟩ := f'
      obtain ⟨rfl, h1, h2, hp⟩ := h
      rcases evaluateFrame_rows c n with ⟨e, he⟩ | ⟨f, hf⟩
      · exact .inl ⟨e, he rows, he rows'⟩
      · exact .inr ⟨f, hf rows, hf rows'⟩

theorem active_map {xs xs' : Xs} {y y' : List Label} (h : SamePoints xs y xs' y') (f : List Num → Nat) :
    SameActive ((rowsOf xs).map f) y ((rowsOf xs').map f) y' := by
  have := SamePairs.map (SamePoints.pairs h) f (id : Label → Label)
  rwa [List.map_id, List.map_id] at this

theorem evaluate_order {c : Cond} {xs xs' : Xs} {y y' : List Label} (h : SamePoints xs y xs' y') :
    (∃ e, Rule.evaluate c xs = .error e ∧ Rule.evaluate c xs' = .error e) ∨
      ∃ v v', Rule.evaluate c xs = .ok v ∧ Rule.evaluate c xs' = .ok v' ∧ SameActive v y v' y' := by
  rcases evaluate_both h c with he | ⟨f, h1, h2⟩
  · exact .inl he
  · exact .inr ⟨_, _, h1, h2, active_map h _⟩

end Verif.RowOrder
