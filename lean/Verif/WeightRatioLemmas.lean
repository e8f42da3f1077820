import Verif.WeightRatioSpec
import Verif.PredictLemmas
import Mathlib.Tactic.FieldSimp
import Mathlib.Tactic.Positivity

/-!
# Lemmas on weights which only differ by a factor
-/

namespace Verif.WeightRatio

open Verif Verif.Spec Vote

variable {a : Rat}

theorem infSign_pos (ha : 0 < a) : Num.infSign a = .inf := by
  unfold Num.infSign
  rw [if_neg ha.ne', if_neg (not_lt.2 ha.le)]

theorem infSign_neg (ha : 0 < a) : Num.infSign (-a) = .ninf := by
  unfold Num.infSign
  rw [if_neg (by simpa using ha.ne'), if_pos (by simpa using ha)]

theorem infSign_mul (ha : 0 < a) (b : Rat) : Num.infSign (a * b) = Num.infSign b := by
  unfold Num.infSign
  have h1 : a * b = 0 ↔ b = 0 := by simp [ha.ne']
  have h2 : a * b < 0 ↔ b < 0 := by
    constructor
    · intro h
      by_contra hb
      exact absurd (mul_nonneg ha.le (not_lt.1 hb)) (not_le.2 h)
    · exact fun h => mul_neg_of_pos_of_neg ha h
  simp only [h1, h2]

/-- `a` times a number -/
abbrev A (a : Rat) (x : Num) : Num := Num.mul (.fin a) x

theorem A_infSign (ha : 0 < a) (b : Rat) : A a (Num.infSign b) = Num.infSign b := by
  unfold A
  rcases lt_trichotomy b 0 with h | h | h
  · have : Num.infSign b = .ninf := by unfold Num.infSign; rw [if_neg h.ne, if_pos h]
    rw [this]
    exact infSign_neg ha
  · subst h
    rfl
  · rw [infSign_pos h]
    exact infSign_pos ha

@[simp] theorem A_nan : A a .nan = .nan := rfl
@[simp] theorem A_zero : A a (.fin 0) = .fin 0 := by simp [A, Num.mul]
@[simp] theorem A_fin (b : Rat) : A a (.fin b) = .fin (a * b) := rfl
theorem A_inf (ha : 0 < a) : A a .inf = .inf := infSign_pos ha
theorem A_ninf (ha : 0 < a) : A a .ninf = .ninf := infSign_neg ha

theorem mul_A (ha : 0 < a) (q x : Num) : Num.mul q (A a x) = A a (Num.mul q x) := by
  cases x with
  | nan => cases q <;> rfl
  | inf =>
    rw [A_inf ha]
    cases q with
    | nan => rfl
    | inf => exact (A_inf ha).symm
    | ninf => exact (A_ninf ha).symm
    | fin b => exact (A_infSign ha b).symm
  | ninf =>
    rw [A_ninf ha]
    cases q with
    | nan => rfl
    | inf => exact (A_ninf ha).symm
    | ninf => exact (A_inf ha).symm
    | fin b => exact (A_infSign ha (-b)).symm
  | fin b =>
    cases q with
    | nan => rfl
    | inf =>
      show Num.infSign (a * b) = A a (Num.infSign b)
      rw [infSign_mul ha, A_infSign ha]
    | ninf =>
      show Num.infSign (-(a * b)) = A a (Num.infSign (-b))
      rw [← mul_neg, infSign_mul ha, A_infSign ha]
    | fin c =>
      show Num.fin (c * (a * b)) = Num.fin (a * (c * b))
      rw [mul_left_comm]

theorem add_A (ha : 0 < a) (x y : Num) : Num.add (A a x) (A a y) = A a (Num.add x y) := by
  cases x <;> cases y <;> simp only [A_nan, A_inf ha, A_ninf ha, A_fin, Num.add, mul_add]

theorem isNaN_A (ha : 0 < a) (x : Num) : (A a x).isNaN = x.isNaN := by
  cases x <;> simp only [A_nan, A_inf ha, A_ninf ha, A_fin, Num.isNaN]

theorem le_A (ha : 0 < a) (x y : Num) : Num.le (A a x) (A a y) = Num.le x y := by
  cases x <;> cases y <;> simp only [A_nan, A_inf ha, A_ninf ha, A_fin, Num.le]
  exact decide_eq_decide.2 (mul_le_mul_iff_right₀ ha)

theorem beq_A (ha : 0 < a) (x y : Num) : Num.beq (A a x) (A a y) = Num.beq x y := by
  unfold Num.beq
  rw [le_A ha, le_A ha]

theorem zero_A (ha : 0 < a) (x : Num) : Num.beq (A a x) (.fin 0) = Num.beq x (.fin 0) := by
  have := beq_A ha x (.fin 0)
  rwa [A_zero] at this

theorem max_A (ha : 0 < a) (x y : Num) : Num.max (A a x) (A a y) = A a (Num.max x y) := by
  unfold Num.max Num.lt
  rw [le_A ha, le_A ha]
  split <;> rfl

theorem div_A (ha : 0 < a) (x y : Num) : Num.div (A a x) (A a y) = Num.div x y := by
  have h2 : ∀ b : Rat, a * b < 0 ↔ b < 0 := by
    intro b
    constructor
    · intro h
      by_contra hb
      exact absurd (mul_nonneg ha.le (not_lt.1 hb)) (not_le.2 h)
    · exact fun h => mul_neg_of_pos_of_neg ha h
  cases x <;> cases y <;> simp only [A_nan, A_inf ha, A_ninf ha, A_fin, Num.div, h2]
  rename_i b c
  by_cases hc : c = 0
  · subst hc
    simp only [mul_zero, if_true]
    exact infSign_mul ha b
  · rw [if_neg hc, if_neg (by simp [hc, ha.ne'])]
    congr 1
    field_simp

/-! ## Without stacked activations -/

theorem weightOf_A (ha : 0 < a) {w w' : Weights} (h : TimesWeights a w w') (n : String) :
    weightOf w' n = (weightOf w n).map (A a) := by
  unfold weightOf
  rw [h n]
  cases w n with
  | none => rfl
  | some x =>
    show (if (A a x).beq (.fin 0) = true then none else if (A a x).isNaN = true then none else some (A a x)) = _
    simp only [zero_A ha, isNaN_A ha]
    split
    · rfl
    · split <;> rfl

theorem scale_A (ha : 0 < a) (v : List Nat) (x : Num) : scale v (A a x) = (scale v x).map (A a) := by
  unfold scale
  rw [List.map_map]
  exact List.map_congr_left fun n _ => mul_A ha _ _

theorem mulBy_A (ha : 0 < a) (l : List Num) (x : Num) :
    (l.map fun q => Num.mul q (A a x)) = (l.map fun q => Num.mul q x).map (A a) := by
  rw [List.map_map]
  exact List.map_congr_left fun q _ => mul_A ha _ _

theorem zipAdd_A (ha : 0 < a) (x y : List Num) :
    zipOp Num.add (x.map (A a)) (y.map (A a)) = (zipOp Num.add x y).map (List.map (A a)) := by
  unfold zipOp
  simp only [List.length_map]
  split
  · simp only [Except.map, List.zipWith_map, List.map_zipWith, add_A ha]
  · rfl

theorem zipDiv_A (ha : 0 < a) (x y : List Num) : zipOp Num.div (x.map (A a)) (y.map (A a)) = zipOp Num.div x y := by
  unfold zipOp
  simp only [List.length_map, List.zipWith_map, div_A ha]

theorem accumulate_A (ha : 0 < a) (cum term : List Num) :
    accumulate (cum.map (A a)) (term.map (A a)) = (accumulate cum term).map (List.map (A a)) := by
  unfold accumulate
  have e1 : ((cum.map (A a)).any fun c => c.beq (.fin 0)) = cum.any fun c => c.beq (.fin 0) := by
    rw [List.any_map]
    exact congrArg cum.any (funext fun c => zero_A ha c)
  have e2 : ((cum.map (A a)).map fun c => if c.isNaN then Num.fin 0 else c) =
      (cum.map fun c => if c.isNaN then Num.fin 0 else c).map (A a) := by
    rw [List.map_map, List.map_map]
    refine List.map_congr_left fun c _ => ?_
    show (if (A a c).isNaN then Num.fin 0 else A a c) = A a (if c.isNaN then Num.fin 0 else c)
    rw [isNaN_A ha]
    split
    · exact A_zero.symm
    · rfl
  rw [e1, e2]
  split
  · rfl
  · rw [zipAdd_A ha]
    cases zipOp Num.add (cum.map fun c => if c.isNaN then Num.fin 0 else c) term with
    | error e => rfl
    | ok l =>
      show Except.ok _ = Except.ok _
      rw [List.map_map, List.map_map]
      congr 1
      refine List.map_congr_left fun x _ => ?_
      show (if (A a x).beq (.fin 0) then Num.nan else A a x) = A a (if x.beq (.fin 0) then Num.nan else x)
      rw [zero_A ha]
      split <;> rfl

/-- Both sums, `a` times -/
def both (a : Rat) (p : List Num × List Num) : List Num × List Num := (p.1.map (A a), p.2.map (A a))

theorem weightedStep_A (ha : 0 < a) {S : SetEnv} {w w' : Weights} (h : TimesWeights a w w') {xs : Option Xs}
    (acc : Option (List Num × List Num)) (r : Rule) :
    weightedStep S w' xs (acc.map (both a)) r = (weightedStep S w xs acc r).map (Option.map (both a)) := by
  unfold weightedStep
  rw [weightOf_A ha h]
  cases weightOf w (S.condStr r.cond) with
  | none => rfl
  | some x =>
    simp only [Option.map_some]
    cases activationOf S.env xs r with
    | error e => rfl
    | ok o =>
      cases o with
      | none => rfl
      | some v =>
        simp only [bind, Except.bind]
        by_cases hv : v.length = 0
        · rw [if_pos hv, if_pos hv]
          rfl
        · rw [if_neg hv, if_neg hv]
          cases acc with
          | none =>
            simp only [Option.map_none]
            cases firstVector S.env r v with
            | error e => rfl
            | ok p =>
              simp only [scale_A ha, mulBy_A ha]
              rfl
          | some q =>
            obtain ⟨cum, cumW⟩ := q
            simp only [Option.map_some, both]
            cases r.getPrediction S.env with
            | error e => rfl
            | ok o =>
              simp only
              cases numberOf o with
              | error e => rfl
              | ok p =>
                simp only [mulBy_A ha, scale_A ha, accumulate_A ha, zipAdd_A ha]
                cases accumulate cum ((scale v p).map fun q => Num.mul q x) with
                | error e => rfl
                | ok c =>
                  simp only [Except.map]
                  cases zipOp Num.add cumW (scale v x) with
                  | error e => rfl
                  | ok c' => rfl

theorem fold_A {σ τ ρ : Type} {f : ρ → ρ} {m n : ρ → τ → Except Err ρ} (h : ∀ s x, n (f s) x = (m s x).map f) :
    ∀ (l : List τ) (s : ρ), l.foldlM n (f s) = (l.foldlM m s).map f
  | [], s => rfl
  | x :: l, s => by
    rw [List.foldlM_cons, List.foldlM_cons, h]
    cases m s x with
    | error e => rfl
    | ok t => exact fold_A (σ := σ) h l t

theorem weightedRegressor_A (ha : 0 < a) {S : SetEnv} {rules : List Rule} {w w' : Weights} (h : TimesWeights a w w') {xs : Option Xs} :
    weightedRegressor S rules w' xs = weightedRegressor S rules w xs := by
  unfold weightedRegressor
  have := fold_A (σ := Unit) (f := Option.map (both a)) (weightedStep_A (S := S) (xs := xs) ha h) rules none
  rw [Option.map_none] at this
  rw [this]
  split
  · rfl
  · cases rules.foldlM (weightedStep S w xs) none with
    | error e => rfl
    | ok o =>
      cases o with
      | none => rfl
      | some p => exact zipDiv_A ha p.1 p.2

/-- The table, `a` times -/
def rowsA (a : Rat) (t : Table) : Table := t.map fun p => (p.1, p.2.map (A a))

theorem addRow_A (ha : 0 < a) (p : Label) (v : List Num) : ∀ t : Table,
    addRow (rowsA a t) p (v.map (A a)) = (addRow t p v).map (rowsA a)
  | [] => rfl
  | (q, u) :: rest => by
    show addRow ((q, u.map (A a)) :: rowsA a rest) p (v.map (A a)) = _
    unfold addRow
    simp only [List.length_map]
    split
    · rfl
    · split
      · simp only [Except.map, rowsA, List.map_cons, List.zipWith_map, List.map_zipWith, add_A ha]
      · rw [addRow_A ha p v rest]
        cases addRow rest p v with
        | error e => rfl
        | ok t => rfl

theorem classStep_A (ha : 0 < a) {S : SetEnv} {w w' : Weights} (h : TimesWeights a w w') {xs : Option Xs} (t : Table) (r : Rule) :
    classStep S w' xs (rowsA a t) r = (classStep S w xs t r).map (rowsA a) := by
  unfold classStep
  rw [weightOf_A ha h]
  cases weightOf w (S.condStr r.cond) with
  | none => rfl
  | some x =>
    simp only [Option.map_some]
    cases activationOf S.env xs r with
    | error e => rfl
    | ok o =>
      cases o with
      | none => rfl
      | some v =>
        simp only [bind, Except.bind]
        by_cases hv : Rule.nones v = 0
        · rw [if_pos hv, if_pos hv]
          rfl
        · rw [if_neg hv, if_neg hv]
          cases r.getPrediction S.env with
          | error e => rfl
          | ok o =>
            cases o with
            | none => rfl
            | some p =>
              simp only [scale_A ha]
              exact addRow_A ha p _ t

theorem dropna_A (ha : 0 < a) (l : List Num) : Num.dropna (l.map (A a)) = (Num.dropna l).map (A a) := by
  unfold Num.dropna
  rw [List.filter_map]
  congr 1
  refine List.filter_congr fun x _ => ?_
  show (!(A a x).isNaN) = _
  rw [isNaN_A ha]

theorem nanmax_A (ha : 0 < a) (l : List Num) : nanmax (l.map (A a)) = A a (nanmax l) := by
  unfold nanmax
  rw [dropna_A ha]
  cases Num.dropna l with
  | nil => rfl
  | cons x rest =>
    simp only [List.map_cons]
    induction rest generalizing x with
    | nil => rfl
    | cons y rest ih =>
      simp only [List.map_cons, List.foldl_cons]
      rw [max_A ha]
      exact ih _

theorem decideClass_A (ha : 0 < a) (c : List (Label × Num)) :
    decideClass (c.map fun p => (p.1, A a p.2)) = decideClass c := by
  unfold decideClass
  have e : (c.map fun p => (p.1, A a p.2)).map (·.2) = (c.map (·.2)).map (A a) := by simp [List.map_map, Function.comp_def]
  simp only [e, nanmax_A ha, zero_A ha]
  have e2 : ((c.map fun p => (p.1, A a p.2)).any fun p => p.2.isNaN) = c.any fun p => p.2.isNaN := by
    rw [List.any_map]
    exact congrArg c.any (funext fun p => isNaN_A ha p.2)
  have e3 : ((c.map fun p => (p.1, A a p.2)).filter fun p => p.2.beq (A a (nanmax (c.map (·.2))))) =
      (c.filter fun p => p.2.beq (nanmax (c.map (·.2)))).map fun p => (p.1, A a p.2) := by
    rw [List.filter_map]
    congr 1
    exact List.filter_congr fun p _ => beq_A ha _ _
  rw [e2, e3]
  split
  · rfl
  · split
    · rfl
    · cases c.filter fun p => p.2.beq (nanmax (c.map (·.2))) with
      | nil => rfl
      | cons p rest => cases rest <;> rfl

theorem columns_A (t : Table) : columns (rowsA a t) = (columns t).map fun c => c.map fun p => (p.1, A a p.2) := by
  cases t with
  | nil => rfl
  | cons q rest =>
    obtain ⟨q, v⟩ := q
    unfold columns rowsA
    simp only [List.map_cons, List.length_map]
    rw [List.map_map]
    refine List.map_congr_left fun i _ => ?_
    simp only [Function.comp, List.map_cons, List.map_map, List.getElem?_map]
    congr 1
    · cases v[i]? <;> rfl
    · refine List.map_congr_left fun p _ => ?_
      simp only [Function.comp, List.getElem?_map]
      cases p.2[i]? <;> rfl

theorem weightedClassifier_A (ha : 0 < a) {S : SetEnv} {rules : List Rule} {w w' : Weights} (h : TimesWeights a w w')
    {xs : Option Xs} : weightedClassifier S rules w' xs = weightedClassifier S rules w xs := by
  unfold weightedClassifier
  have := fold_A (σ := Unit) (f := rowsA a) (classStep_A (S := S) (xs := xs) ha h) rules []
  rw [show rowsA a [] = [] from rfl] at this
  rw [this]
  split
  · rfl
  · cases rules.foldlM (classStep S w xs) [] with
    | error e => rfl
    | ok t =>
      simp only [Except.map, bind, Except.bind]
      rw [show (rowsA a t).length = t.length by simp [rowsA], columns_A, List.map_map]
      split
      · rfl
      · congr 1
        exact List.map_congr_left fun c _ => decideClass_A ha c

/-! ## With stacked activations -/

theorem cellWeight_A (ha : 0 < a) {w w' : Weights} (h : TimesWeights a w w') (n : String) (k : Nat) :
    cellWeight w' n k = A a (cellWeight w n k) := by
  unfold cellWeight
  rw [h n]
  cases w n with
  | none => rfl
  | some x =>
    simp only [Option.map_some]
    rw [mul_A ha, zero_A ha]
    split
    · rfl
    · split <;> rfl

/-- The cells of a column, with `a` times their weights -/
def cellsA {α : Type} (a : Rat) (c : String × List (α × Num)) : String × List (α × Num) :=
  (c.1, c.2.map fun p => (p.1, A a p.2))

theorem weighColumn_A (ha : 0 < a) {w w' : Weights} (h : TimesWeights a w w') {α : Type} (isNaN : α → Bool) (preds : Columns α)
    (c : String × List Nat) : weighColumn isNaN preds w' c = (weighColumn isNaN preds w c).map (cellsA a) := by
  unfold weighColumn
  cases lookup preds c.1 with
  | none => rfl
  | some p =>
    have e : c.2.map (cellWeight w' c.1) = (c.2.map (cellWeight w c.1)).map (A a) := by
      rw [List.map_map]
      exact List.map_congr_left fun k _ => cellWeight_A ha h _ _
    have e2 : ((c.2.map (cellWeight w c.1)).map (A a)).all Num.isNaN = (c.2.map (cellWeight w c.1)).all Num.isNaN := by
      rw [List.all_map]
      exact congrArg (c.2.map (cellWeight w c.1)).all (funext fun x => isNaN_A ha x)
    simp only [e, e2]
    split
    · rfl
    · show some _ = some _
      congr 1
      unfold cellsA
      simp only [List.zipWith_map_right, List.map_zipWith]
      congr 2
      funext q x
      split <;> rfl

theorem initWeights_A (ha : 0 < a) {w w' : Weights} (h : TimesWeights a w w') {α : Type} (isNaN : α → Bool) (acts : Columns Nat)
    (preds : Columns α) : initWeights isNaN acts preds w' = (initWeights isNaN acts preds w).map (List.map (cellsA a)) := by
  unfold initWeights
  have e : acts.filterMap (weighColumn isNaN preds w') = (acts.filterMap (weighColumn isNaN preds w)).map (cellsA a) := by
    rw [List.map_filterMap]
    exact List.filterMap_congr fun c _ => weighColumn_A ha h isNaN preds c
  simp only [e, List.length_map]
  split <;> rfl

theorem rowsOf_A {α : Type} (n : Nat) (c : Columns (α × Num)) :
    rowsOf n (c.map (cellsA a)) = (rowsOf n c).map fun row => row.map fun p => (p.1, A a p.2) := by
  unfold rowsOf
  rw [List.map_map]
  refine List.map_congr_left fun i _ => ?_
  simp only [Function.comp, List.filterMap_map, List.map_filterMap]
  refine List.filterMap_congr fun p _ => ?_
  simp [cellsA]

theorem sum_A (ha : 0 < a) (l : List Num) : Num.sum (l.map (A a)) = A a (Num.sum l) := by
  unfold Num.sum
  have : ∀ s, (l.map (A a)).foldl Num.add (A a s) = A a (l.foldl Num.add s) := by
    induction l with
    | nil => exact fun s => rfl
    | cons x l ih =>
      intro s
      simp only [List.map_cons, List.foldl_cons]
      rw [add_A ha]
      exact ih _
  have h0 := this (.fin 0)
  rwa [A_zero] at h0

theorem nansum_A (ha : 0 < a) (l : List Num) : nansum (l.map (A a)) = A a (nansum l) := by
  unfold nansum
  rw [dropna_A ha, sum_A ha]

theorem regressorStacked_A (ha : 0 < a) {w w' : Weights} (h : TimesWeights a w w') (n : Nat) (acts : Columns Nat)
    (preds : Columns Num) : weightedRegressorStacked n acts preds w' = weightedRegressorStacked n acts preds w := by
  unfold weightedRegressorStacked
  rw [initWeights_A ha h]
  cases initWeights Num.isNaN acts preds w with
  | error e => rfl
  | ok cols =>
    simp only [Except.map, bind, Except.bind]
    rw [rowsOf_A, List.map_map]
    congr 1
    refine List.map_congr_left fun row _ => ?_
    have e1 : ((row.map fun p => (p.1, A a p.2)).map fun p : Num × Num => Num.mul p.1 p.2) =
        (row.map fun p => Num.mul p.1 p.2).map (A a) := by
      simp only [List.map_map, Function.comp_def, mul_A ha]
    have e2 : ((row.map fun p => (p.1, A a p.2)).map fun p : Num × Num => p.2) = (row.map fun p => p.2).map (A a) := by
      simp only [List.map_map, Function.comp_def]
    show Num.div (nansum ((row.map fun p => (p.1, A a p.2)).map fun p : Num × Num => Num.mul p.1 p.2))
      (nansum ((row.map fun p => (p.1, A a p.2)).map fun p : Num × Num => p.2)) = _
    rw [e1, e2, nansum_A ha, nansum_A ha, div_A ha]

theorem classifierStacked_A (ha : 0 < a) {w w' : Weights} (h : TimesWeights a w w') (n : Nat) (acts : Columns Nat)
    (preds : Columns Label) : weightedClassifierStacked n acts preds w' = weightedClassifierStacked n acts preds w := by
  unfold weightedClassifierStacked
  rw [initWeights_A ha h]
  cases initWeights Label.isNaN acts preds w with
  | error e => rfl
  | ok cols =>
    simp only [Except.map, bind, Except.bind]
    congr 2
    rw [List.map_map]
    refine List.map_congr_left fun c _ => ?_
    have e : ((rowsOf n (cols.map (cellsA a))).map fun row => nanmax (row.map fun p => p.2)) =
        ((rowsOf n cols).map fun row => nanmax (row.map fun p => p.2)).map (A a) := by
      rw [rowsOf_A, List.map_map, List.map_map]
      refine List.map_congr_left fun row _ => ?_
      show nanmax ((row.map fun p => (p.1, A a p.2)).map fun p : Label × Num => p.2) = A a (nanmax (row.map fun p => p.2))
      rw [← nanmax_A ha]
      simp only [List.map_map, Function.comp_def]
    rw [e]
    simp only [Function.comp, cellsA, List.zipWith_map, beq_A ha]

theorem predictStacked_A (ha : 0 < a) {w w' : Weights} (h : TimesWeights a w w') (S : SetEnv) (rules : List Rule)
    (acts : Columns Nat) : predictStacked S rules acts (some w') = predictStacked S rules acts (some w) := by
  unfold predictStacked
  simp only [regressorStacked_A ha h, classifierStacked_A ha h]

theorem predictUnstacked_A (ha : 0 < a) {w w' : Weights} (h : TimesWeights a w w') (S : SetEnv) (xs : Option Xs) :
    Vote.predictUnstacked S (some w') xs = Vote.predictUnstacked S (some w) xs := by
  funext rules
  unfold Vote.predictUnstacked
  simp only [Py.bind_run, Py.get_run]
  cases S.env.kind with
  | regression =>
    show (do let l ← Py.ofExcept (weightedRegressor S rules w' xs); pure (l.map Label.num) : Py (List Rule) (List Label)) rules = _
    rw [weightedRegressor_A ha h]
  | classification =>
    show Py.ofExcept (weightedClassifier S rules w' xs) rules = _
    rw [weightedClassifier_A ha h]

theorem predict_A (ha : 0 < a) {w w' : Weights} (h : TimesWeights a w w') (R : RsEnv) (xs : Option Xs) :
    RuleSet.predict R xs (some (.series w')) = RuleSet.predict R xs (some (.series w)) := by
  unfold RuleSet.predict RuleSet.predictUnstacked RuleSet.weightsOf weightsFrom
  simp only [Except.map]
  funext s
  simp only [Py.bind_run, Py.get_run]
  by_cases h0 : s.rules.length = 0
  · rw [if_pos h0, if_pos h0]
  · rw [if_neg h0, if_neg h0]
    cases s.ruleType with
    | none => rfl
    | some k =>
      have hu : (do
            let s ← Py.get
            let w ← Py.ofExcept (Except.ok (some w'))
            let p := Vote.predictUnstacked (RuleSet.voteEnv R k) w xs (s.rules.map (·.rule))
            Py.modify fun s => { s with rules := RuleSet.putBack s.rules p.2 }
            let l ← Py.ofExcept p.1
            pure (l.map Cell.label) : Py RuleSet (List Cell)) s = (do
            let s ← Py.get
            let w ← Py.ofExcept (Except.ok (some w))
            let p := Vote.predictUnstacked (RuleSet.voteEnv R k) w xs (s.rules.map (·.rule))
            Py.modify fun s => { s with rules := RuleSet.putBack s.rules p.2 }
            let l ← Py.ofExcept p.1
            pure (l.map Cell.label) : Py RuleSet (List Cell)) s := by
        simp only [Py.bind_run, Py.get_run, Py.ofExcept_run]
        rw [predictUnstacked_A ha h]
      cases R.stackedFit with
      | false => exact hu
      | true =>
        cases s.stacked with
        | none => exact hu
        | some c =>
          simp only [Py.bind_run, Py.ofExcept_run]
          cases RuleSet.stackFor R xs s c with
          | error e => rfl
          | ok c =>
            simp only
            rw [predictStacked_A ha h]

/-! ## Rules without weight -/

theorem beq_zero (x : Num) : x.beq (.fin 0) = decide (x = .fin 0) := by
  cases x with
  | nan => rfl
  | inf => rfl
  | ninf => rfl
  | fin q =>
    unfold Num.beq Num.le
    simp only [Num.fin.injEq]
    by_cases h : q = 0
    · subst h; rfl
    · rw [decide_eq_false h, Bool.and_eq_false_iff]
      rcases lt_or_gt_of_ne h with h | h
      · right; simpa using h
      · left; simpa using h

theorem weightOf_none {w : Weights} {n : String} (h : weighty w n = false) : weightOf w n = none := by
  unfold weighty at h
  unfold weightOf
  cases hw : w n with
  | none => rfl
  | some x =>
    rw [hw] at h
    simp only [decide_eq_false_iff_not, not_and, not_not] at h
    simp only [beq_zero]
    by_cases h0 : x = .fin 0
    · simp [h0]
    · rw [h h0]
      rfl

theorem fold_skip {τ ρ : Type} {m : ρ → τ → Except Err ρ} {keep : τ → Bool} : ∀ (l : List τ) (s : ρ),
    (∀ x ∈ l, keep x = false → ∀ s, m s x = .ok s) → l.foldlM m s = (l.filter keep).foldlM m s
  | [], s, _ => rfl
  | x :: l, s, h => by
    have ih := fun t => fold_skip l t fun y hy => h y (List.mem_cons_of_mem _ hy)
    cases hk : keep x with
    | false =>
      rw [List.filter_cons_of_neg (by simp [hk]), List.foldlM_cons, h x List.mem_cons_self hk s]
      exact ih s
    | true =>
      rw [List.filter_cons_of_pos hk, List.foldlM_cons, List.foldlM_cons]
      cases m s x with
      | error e => rfl
      | ok t => exact ih t

theorem regressor_skip {S : SetEnv} {rules : List Rule} {w : Weights} {xs : Option Xs}
    (hne : (rules.filter fun r => weighty w (S.condStr r.cond)) ≠ []) :
    weightedRegressor S rules w xs = weightedRegressor S (rules.filter fun r => weighty w (S.condStr r.cond)) w xs := by
  have hne' : rules ≠ [] := by rintro rfl; exact hne rfl
  unfold weightedRegressor
  rw [if_neg (by simpa using hne'), if_neg (fun h => hne (List.length_eq_zero_iff.1 h)),
    fold_skip (keep := fun r => weighty w (S.condStr r.cond)) rules none]
  intro r _ hr s
  unfold weightedStep
  rw [weightOf_none hr]

theorem classifier_skip {S : SetEnv} {rules : List Rule} {w : Weights} {xs : Option Xs}
    (hne : (rules.filter fun r => weighty w (S.condStr r.cond)) ≠ []) :
    weightedClassifier S rules w xs = weightedClassifier S (rules.filter fun r => weighty w (S.condStr r.cond)) w xs := by
  have hne' : rules ≠ [] := by rintro rfl; exact hne rfl
  unfold weightedClassifier
  rw [if_neg (by simpa using hne'), if_neg (fun h => hne (List.length_eq_zero_iff.1 h)),
    fold_skip (keep := fun r => weighty w (S.condStr r.cond)) rules []]
  intro r _ hr s
  unfold classStep
  rw [weightOf_none hr]

theorem fold_none {τ ρ : Type} {m : ρ → τ → Except Err ρ} {l : List τ} {s : ρ} (h : ∀ x ∈ l, ∀ s, m s x = .ok s) :
    l.foldlM m s = .ok s := by
  rw [fold_skip (keep := fun _ => false) l s fun x hx _ => h x hx, List.filter_eq_nil_iff.2 (by simp)]
  rfl

theorem regressor_none {S : SetEnv} {rules : List Rule} {w : Weights} {xs : Option Xs} (hne : rules ≠ [])
    (h : ∀ r ∈ rules, weighty w (S.condStr r.cond) = false) : weightedRegressor S rules w xs = .error .valueError := by
  unfold weightedRegressor
  rw [if_neg (by simpa using hne), fold_none]
  · rfl
  · intro r hr s
    unfold weightedStep
    rw [weightOf_none (h r hr)]

theorem classifier_none {S : SetEnv} {rules : List Rule} {w : Weights} {xs : Option Xs} (hne : rules ≠ [])
    (h : ∀ r ∈ rules, weighty w (S.condStr r.cond) = false) : weightedClassifier S rules w xs = .error .valueError := by
  unfold weightedClassifier
  rw [if_neg (by simpa using hne), fold_none]
  · rfl
  · intro r hr s
    unfold classStep
    rw [weightOf_none (h r hr)]

/-- What `predict` with weights does without stacked activations -/
def weightedVote (S : SetEnv) (rules : List Rule) (w : Weights) (xs : Option Xs) : Except Err (List Label) :=
  match S.env.kind with
  | .regression => (weightedRegressor S rules w xs).map (List.map Label.num)
  | .classification => weightedClassifier S rules w xs

theorem predictUnstacked_eq {S : SetEnv} {rules : List Rule} {w : Weights} {xs : Option Xs} :
    Vote.predictUnstacked S (some w) xs rules = (weightedVote S rules w xs, rules) := by
  unfold Vote.predictUnstacked weightedVote
  simp only [Py.bind_run, Py.get_run]
  cases S.env.kind with
  | regression =>
    simp only [Py.bind_run, Py.ofExcept_run]
    cases weightedRegressor S rules w xs <;> rfl
  | classification => rfl

theorem predict_weighted {R : RsEnv} {s : RuleSet} {k : Kind} {w : Weights} {xs : Option Xs} (hne : s.rules ≠ [])
    (hk : s.ruleType = some k) (hu : R.stackedFit = false ∨ s.stacked = none) :
    RuleSet.predict R xs (some (.series w)) s =
      ((weightedVote (RuleSet.voteEnv R k) (s.rules.map (·.rule)) w xs).map (List.map Cell.label), s) := by
  have hp : RuleSet.predictUnstacked R k xs (some (.series w)) s =
      ((weightedVote (RuleSet.voteEnv R k) (s.rules.map (·.rule)) w xs).map (List.map Cell.label), s) := by
    unfold RuleSet.predictUnstacked RuleSet.weightsOf weightsFrom
    simp only [Except.map, Py.bind_run, Py.get_run, Py.ofExcept_run, Py.modify_run, predictUnstacked_eq, RuleSetProps.putBack_same]
    cases weightedVote (RuleSet.voteEnv R k) (s.rules.map (·.rule)) w xs <;> rfl
  unfold RuleSet.predict
  simp only [Py.bind_run, Py.get_run]
  rw [if_neg (by simpa using hne), hk]
  rcases hu with hu | hu
  · rw [hu]
    exact hp
  · rw [hu]
    cases R.stackedFit <;> exact hp

/-! ## Equal weights -/

theorem regressor_congr {S : SetEnv} {rules : List Rule} {w w' : Weights} {xs : Option Xs}
    (h : ∀ r ∈ rules, w' (S.condStr r.cond) = w (S.condStr r.cond)) : weightedRegressor S rules w' xs = weightedRegressor S rules w xs := by
  unfold weightedRegressor
  have : ∀ (l : List Rule) (s), (∀ r ∈ l, w' (S.condStr r.cond) = w (S.condStr r.cond)) →
      l.foldlM (weightedStep S w' xs) s = l.foldlM (weightedStep S w xs) s := by
    intro l
    induction l with
    | nil => intro s _; rfl
    | cons r l ih =>
      intro s hl
      rw [List.foldlM_cons, List.foldlM_cons]
      have e : weightedStep S w' xs s r = weightedStep S w xs s r := by
        unfold weightedStep weightOf
        rw [hl r List.mem_cons_self]
      rw [e]
      cases weightedStep S w xs s r with
      | error e => rfl
      | ok t => exact ih t fun r hr => hl r (List.mem_cons_of_mem _ hr)
  rw [this rules none h]

theorem classifier_congr {S : SetEnv} {rules : List Rule} {w w' : Weights} {xs : Option Xs}
    (h : ∀ r ∈ rules, w' (S.condStr r.cond) = w (S.condStr r.cond)) : weightedClassifier S rules w' xs = weightedClassifier S rules w xs := by
  unfold weightedClassifier
  have : ∀ (l : List Rule) (s), (∀ r ∈ l, w' (S.condStr r.cond) = w (S.condStr r.cond)) →
      l.foldlM (classStep S w' xs) s = l.foldlM (classStep S w xs) s := by
    intro l
    induction l with
    | nil => intro s _; rfl
    | cons r l ih =>
      intro s hl
      rw [List.foldlM_cons, List.foldlM_cons]
      have e : classStep S w' xs s r = classStep S w xs s r := by
        unfold classStep weightOf
        rw [hl r List.mem_cons_self]
      rw [e]
      cases classStep S w xs s r with
      | error e => rfl
      | ok t => exact ih t fun r hr => hl r (List.mem_cons_of_mem _ hr)
  rw [this rules [] h]

theorem classifier_same (ha : 0 < a) {S : SetEnv} {rules : List Rule} {w : Weights} {xs : Option Xs}
    (h : SameWeight S.condStr rules a w) : weightedClassifier S rules w xs = equalClassifier S rules xs := by
  unfold equalClassifier
  rw [← weightedClassifier_A ha (w' := fun n =>
    (if rules.any (fun r => decide (S.condStr r.cond = n)) then some (Num.fin 1) else none).map (Num.mul (.fin a))) fun n => rfl]
  refine classifier_congr fun r hr => ?_
  rw [h r hr, if_pos (List.any_eq_true.2 ⟨r, hr, by simp⟩)]
  simp [Num.mul]

theorem mul_one (q : Num) : Num.mul q (.fin 1) = q := by
  cases q <;> simp [Num.mul, Num.infSign]

/-- What the weighted and the plain loop have done after `j` rules -/
inductive Along (j : Nat) : Option (Option Nat × List Num × List Nat) → Option (List Num × List Num) → Prop
  | none : Along j none none
  | some (k : Option Nat) (cum : List Num) (b : List Nat) (h : ∀ x ∈ b, x ≤ j) :
      Along j (some (k, cum, b)) (some (cum, b.map fun x : Nat => Num.fin x))

theorem Along.mono {i j : Nat} (h : i ≤ j) {e : Option (Option Nat × List Num × List Nat)} {w : Option (List Num × List Num)}
    (ha : Along i e w) : Along j e w := by
  cases ha with
  | none => exact .none
  | some k cum b hb => exact .some k cum b fun x hx => (hb x hx).trans h

theorem addBytes_eq {j : Nat} (hj : j + 1 ≤ 255) {b v : List Nat} (hb : ∀ x ∈ b, x ≤ j) (hv : ∀ x ∈ v, x ≤ 1) :
    (∃ c, addBytes b v = .ok c ∧ (∀ x ∈ c, x ≤ j + 1) ∧
      zipOp Num.add (b.map fun x : Nat => Num.fin x) (v.map fun x : Nat => Num.fin x) = .ok (c.map fun x : Nat => Num.fin x)) ∨
    addBytes b v = .error .valueError ∧
      zipOp Num.add (b.map fun x : Nat => Num.fin x) (v.map fun x : Nat => Num.fin x) = .error .valueError := by
  unfold addBytes zipOp
  simp only [List.length_map]
  by_cases hl : b.length = v.length
  · left
    rw [if_pos hl, if_pos hl]
    refine ⟨_, rfl, ?_, ?_⟩
    · intro x hx
      obtain ⟨i, hi, rfl⟩ := List.getElem_of_mem hx
      rw [List.getElem_zipWith]
      rw [List.length_zipWith] at hi
      have h1 := hb b[i] (List.getElem_mem _)
      have h2 := hv v[i] (List.getElem_mem _)
      exact (Nat.mod_le _ _).trans (by omega)
    · congr 1
      apply List.ext_getElem
      · simp
      · intro i h1 h2
        simp only [List.length_zipWith, List.length_map] at h1
        have h3 := hb b[i] (List.getElem_mem _)
        have h4 := hv v[i] (List.getElem_mem _)
        simp only [List.getElem_zipWith, List.getElem_map]
        rw [Nat.mod_eq_of_lt (by omega)]
        simp [Num.add]
  · right
    rw [if_neg hl, if_neg hl]
    exact ⟨rfl, rfl⟩

theorem step_along {S : SetEnv} {xs : Option Xs} {w : Weights} {r : Rule} {i j : Nat} (hj : j + 1 ≤ 255)
    (hw : w (S.condStr r.cond) = some (.fin 1)) (hv : ∀ v, activationOf S.env xs r = .ok (some v) → ∀ x ∈ v, x ≤ 1)
    {e : Option (Option Nat × List Num × List Nat)} {acc : Option (List Num × List Num)} (ha : Along j e acc) (st : List Rule) :
    (∃ e' acc' st', equalStep S xs i r e st = (.ok e', st') ∧ weightedStep S w xs acc r = .ok acc' ∧ Along (j + 1) e' acc') ∨
      ∃ x, (equalStep S xs i r e st).1 = .error x ∧ weightedStep S w xs acc r = .error x := by
  have hone : weightOf w (S.condStr r.cond) = some (.fin 1) := by
    unfold weightOf
    rw [hw]
    rfl
  have hscale : ∀ v : List Nat, scale v (.fin 1) = v.map fun x : Nat => Num.fin x := by
    intro v
    unfold scale
    exact List.map_congr_left fun x _ => mul_one _
  have hmul : ∀ l : List Num, (l.map fun q => Num.mul q (.fin 1)) = l := by
    intro l
    conv_rhs => rw [← List.map_id l]
    exact List.map_congr_left fun x _ => mul_one _
  unfold equalStep weightedStep
  rw [hone]
  simp only [bind, Except.bind, Py.bind, Py.ofExcept_run]
  cases hact : activationOf S.env xs r with
  | error x => exact .inr ⟨x, rfl, rfl⟩
  | ok o =>
    cases o with
    | none => exact .inl ⟨_, _, _, rfl, rfl, ha.mono (by omega)⟩
    | some v =>
      simp only
      have hv' := hv v hact
      by_cases h0 : v.length = 0
      · rw [if_pos h0, if_pos h0]
        exact .inl ⟨_, _, _, rfl, rfl, ha.mono (by omega)⟩
      · rw [if_neg h0, if_neg h0]
        cases ha with
        | none =>
          simp only
          cases firstVector S.env r v with
          | error x => exact .inr ⟨x, rfl, rfl⟩
          | ok p =>
            simp only [hmul, hscale]
            exact .inl ⟨_, _, _, rfl, rfl, .some _ _ _ fun x hx => (hv' x hx).trans (by omega)⟩
        | some k cum b hb =>
          simp only [Py.bind, Py.ofExcept_run]
          cases r.getPrediction S.env with
          | error x => exact .inr ⟨x, rfl, rfl⟩
          | ok p =>
            simp only [Py.bind, Py.ofExcept_run]
            cases numberOf p with
            | error x => exact .inr ⟨x, rfl, rfl⟩
            | ok p =>
              simp only [hmul, hscale, Py.bind, Py.ofExcept_run]
              cases accumulate cum (scale v p) with
              | error x => exact .inr ⟨x, rfl, rfl⟩
              | ok cum' =>
                simp only [Py.bind, Py.ofExcept_run]
                rcases addBytes_eq hj hb hv' with ⟨c, h1, h2, h3⟩ | ⟨h1, h3⟩
                · rw [h1, h3]
                  exact .inl ⟨_, _, _, rfl, rfl, .some _ _ _ h2⟩
                · rw [h1, h3]
                  exact .inr ⟨_, rfl, rfl⟩

theorem loop_along {S : SetEnv} {xs : Option Xs} {w : Weights} : ∀ (rules : List Rule) (i j : Nat)
    (e : Option (Option Nat × List Num × List Nat)) (acc : Option (List Num × List Num)) (st : List Rule), j + rules.length ≤ 255 →
    (∀ r ∈ rules, w (S.condStr r.cond) = some (.fin 1)) →
    (∀ r ∈ rules, ∀ v, activationOf S.env xs r = .ok (some v) → ∀ x ∈ v, x ≤ 1) → Along j e acc →
    (∃ e' acc' st', equalLoop S xs i rules e st = (.ok e', st') ∧ rules.foldlM (weightedStep S w xs) acc = .ok acc' ∧
      Along (j + rules.length) e' acc') ∨
      ∃ x, (equalLoop S xs i rules e st).1 = .error x ∧ rules.foldlM (weightedStep S w xs) acc = .error x
  | [], i, j, e, acc, st, _, _, _, ha => .inl ⟨e, acc, st, rfl, rfl, ha⟩
  | r :: rules, i, j, e, acc, st, hj, hw, hv, ha => by
    rw [List.length_cons] at hj
    rw [List.foldlM_cons]
    unfold equalLoop
    rcases step_along (i := i) (by omega) (hw r List.mem_cons_self) (hv r List.mem_cons_self) ha st with
      ⟨e', acc', st', h1, h2, h3⟩ | ⟨x, h1, h2⟩
    · rw [Py.bind_ok h1, h2]
      rcases loop_along rules (i + 1) (j + 1) e' acc' st' (by omega) (fun r hr => hw r (List.mem_cons_of_mem _ hr))
        (fun r hr => hv r (List.mem_cons_of_mem _ hr)) h3 with ⟨e'', acc'', st'', g1, g2, g3⟩ | ⟨x, g1, g2⟩
      · refine .inl ⟨e'', acc'', st'', g1, g2, ?_⟩
        rw [List.length_cons, show j + (rules.length + 1) = j + 1 + rules.length by omega]
        exact g3
      · exact .inr ⟨x, g1, g2⟩
    · right
      refine ⟨x, ?_, by rw [h2]; rfl⟩
      rw [Py.bind_run]
      rcases hm : equalStep S xs i r e st with ⟨y | y, st'⟩
      · rw [hm] at h1
        cases h1
        rfl
      · rw [hm] at h1
        cases h1

theorem equal_one {S : SetEnv} {xs : Option Xs} {w : Weights} {rules : List Rule} (hn : rules.length ≤ 255)
    (hw : ∀ r ∈ rules, w (S.condStr r.cond) = some (.fin 1))
    (hv : ∀ r ∈ rules, ∀ v, activationOf S.env xs r = .ok (some v) → ∀ x ∈ v, x ≤ 1) :
    (equalRegressor S xs rules).1 = weightedRegressor S rules w xs := by
  unfold equalRegressor weightedRegressor
  simp only [Py.bind_run, Py.get_run]
  by_cases h0 : rules.length = 0
  · rw [if_pos h0, if_pos h0]
    rfl
  · rw [if_neg h0, if_neg h0]
    rcases loop_along (w := w) rules 0 0 none none rules (by omega) hw hv .none with ⟨e, acc, st, h1, h2, h3⟩ | ⟨x, h1, h2⟩
    · rw [Py.bind_ok h1, h2]
      cases h3 with
      | none => rfl
      | some k cum b hb => rfl
    · rw [h2, Py.bind_run]
      rcases hm : equalLoop S xs 0 rules none rules with ⟨y | y, st'⟩
      · rw [hm] at h1
        cases h1
        rfl
      · rw [hm] at h1
        cases h1

theorem regressor_same (ha : 0 < a) {S : SetEnv} {xs : Option Xs} {w : Weights} {rules : List Rule} (hn : rules.length ≤ 255)
    (hw : SameWeight S.condStr rules a w)
    (hv : ∀ r ∈ rules, ∀ v, activationOf S.env xs r = .ok (some v) → ∀ x ∈ v, x ≤ 1) :
    weightedRegressor S rules w xs = (equalRegressor S xs rules).1 := by
  rw [equal_one (w := fun _ => some (.fin 1)) hn (fun _ _ => rfl) hv,
    ← weightedRegressor_A ha (w := fun _ => some (.fin 1)) (w' := fun _ => some (Num.mul (.fin a) (.fin 1))) fun _ => rfl]
  refine regressor_congr fun r hr => ?_
  rw [hw r hr]
  simp [Num.mul]

theorem maskWith_le {mask : List Nat} {f : Num → Bool} {col : List Num} (h : ∀ x ∈ mask, x ≤ 1) :
    ∀ x ∈ Cond.maskWith mask f col, x ≤ 1 := by
  intro x hx
  unfold Cond.maskWith at hx
  obtain ⟨i, hi, rfl⟩ := List.getElem_of_mem hx
  rw [List.getElem_zipWith]
  rw [List.length_zipWith] at hi
  exact Nat.and_le_left.trans (h mask[i] (List.getElem_mem _))

theorem conj_le {u v : List Nat} (h : ∀ x ∈ u, x ≤ 1) : ∀ x ∈ Cond.conj u v, x ≤ 1 := by
  intro x hx
  unfold Cond.conj at hx
  obtain ⟨i, hi, rfl⟩ := List.getElem_of_mem hx
  rw [List.getElem_zipWith]
  rw [List.length_zipWith] at hi
  exact Nat.and_le_left.trans (h u[i] (List.getElem_mem _))

theorem evalStep_le {c : Cond} {mask v : List Nat} {i : Nat} {col : Except Err (List Num)} (h : Cond.evalStep c mask i col = .ok v)
    (hm : ∀ x ∈ mask, x ≤ 1) : ∀ x ∈ v, x ≤ 1 := by
  unfold Cond.evalStep at h
  simp only [bind, Except.bind] at h
  repeat' split at h
  all_goals first
    | cases h
    | skip
  all_goals exact maskWith_le (maskWith_le (maskWith_le hm))

theorem foldSteps_le {τ : Type} {m : List Nat → τ → Except Err (List Nat)}
    (hs : ∀ s x t, m s x = .ok t → (∀ k ∈ s, k ≤ 1) → ∀ k ∈ t, k ≤ 1) :
    ∀ (l : List τ) (s t : List Nat), l.foldlM m s = .ok t → (∀ k ∈ s, k ≤ 1) → ∀ k ∈ t, k ≤ 1
  | [], s, t, h, hk => by cases h; exact hk
  | x :: l, s, t, h, hk => by
    rw [List.foldlM_cons] at h
    cases hm : m s x with
    | error e => rw [hm] at h; cases h
    | ok s' =>
      rw [hm] at h
      exact foldSteps_le hs l s' t h (hs s x s' hm hk)

theorem replicate_le {n k : Nat} (hk : k ≤ 1) : ∀ x ∈ List.replicate n k, x ≤ 1 := by
  intro x hx
  rw [List.eq_of_mem_replicate hx]
  exact hk

theorem evaluate_le {c : Cond} {xs : Xs} {v : List Nat} (h : Rule.evaluate c xs = .ok v) : ∀ x ∈ v, x ≤ 1 := by
  cases xs with
  | arr m =>
    have h : c.evaluate m = .ok v := h
    unfold Cond.evaluate at h
    split at h
    · cases h
      exact replicate_le (by omega)
    · simp only [bind, Except.bind] at h
      split at h
      · cases h
      · split at h
        · cases h
        · split at h
          · cases h
          · rename_i mask hf
            cases h
            exact conj_le (conj_le (foldSteps_le (fun s x t => evalStep_le) _ _ _ hf (replicate_le le_rfl)))
  | frame f =>
    have h : c.evaluateFrame f = .ok v := h
    unfold Cond.evaluateFrame at h
    split at h
    · cases h
      exact replicate_le (by omega)
    · simp only [bind, Except.bind] at h
      split at h
      · cases h
      · split at h
        · cases h
        · split at h
          · cases h
          · split at h
            · cases h
            · rename_i mask hf _
              cases h
              exact conj_le (conj_le (foldSteps_le (fun s x t => evalStep_le) _ _ _ hf (replicate_le le_rfl)))

theorem activationOf_le {E : Env} {xs : Option Xs} {r : Rule} {v : List Nat} (hr : xs = none → ∀ u, r.activation = some u → ∀ x ∈ u, x ≤ 1)
    (h : activationOf E xs r = .ok (some v)) : ∀ x ∈ v, x ≤ 1 := by
  unfold activationOf at h
  cases xs with
  | none =>
    cases hv : r.activation with
    | none => rw [hv] at h; cases h
    | some u =>
      rw [hv] at h
      cases h
      exact hr rfl _ hv
  | some x =>
    simp only at h
    cases he : r.evaluateActivation E x with
    | error e => rw [he] at h; cases h
    | ok u =>
      rw [he] at h
      cases h
      unfold Rule.evaluateActivation at he
      cases hv : Rule.evaluate r.cond x with
      | error e => rw [hv] at he; cases he
      | ok u' =>
        rw [hv] at he
        simp only [bind, Except.bind] at he
        split at he
        · cases he
        · cases he
          exact evaluate_le hv

end Verif.WeightRatio
