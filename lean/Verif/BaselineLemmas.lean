import Verif.FigureProps
import Mathlib.Algebra.BigOperators.Fin
import Mathlib.Tactic.FieldSimp
import Mathlib.Tactic.Ring
import Mathlib.Tactic.Linarith

/-!
# Lemmas on errors of constant and of infinite predictions
-/

namespace Verif.Baseline

open Verif Rule Spec RFun

/-! ## Squares and the mean -/

theorem sum_squares (c : Rat) (l : List Rat) :
    (l.map fun t => (c - t) ^ 2).sum = c ^ 2 * l.length - 2 * c * l.sum + (l.map fun t => t ^ 2).sum := by
  induction l with
  | nil => simp
  | cons a l ih =>
    simp only [List.map_cons, List.sum_cons, List.length_cons, ih]
    push_cast
    ring

/-- The squared distances to the mean, and those to another value -/
theorem squares_mean (c : Rat) {l : List Rat} (h : l ≠ []) :
    (l.map fun t => (c - t) ^ 2).sum = (l.map fun t => (meanOf l - t) ^ 2).sum + l.length * (c - meanOf l) ^ 2 := by
  have hpos : (l.length : Rat) ≠ 0 := by simpa using h
  have e : l.sum = meanOf l * l.length := by
    unfold meanOf
    field_simp
  rw [sum_squares, sum_squares, e]
  ring

theorem sum_pos {l : List Rat} (h0 : ∀ x ∈ l, 0 ≤ x) {a : Rat} (ha : a ∈ l) (hp : 0 < a) : 0 < l.sum := by
  induction l with
  | nil => cases ha
  | cons x l ih =>
    rw [List.sum_cons]
    have hl : 0 ≤ l.sum := List.sum_nonneg fun y hy => h0 y (List.mem_cons_of_mem _ hy)
    rcases List.mem_cons.1 ha with rfl | ha
    · linarith
    · have := ih (fun y hy => h0 y (List.mem_cons_of_mem _ hy)) ha
      have := h0 x List.mem_cons_self
      linarith

/-- When two values differ, some value is away from `c`. -/
theorem away {l : List Rat} {a b : Rat} (ha : a ∈ l) (hb : b ∈ l) (hab : a ≠ b) (c : Rat) : ∃ t ∈ l, t ≠ c := by
  by_cases h : a = c
  · exact ⟨b, hb, fun e => hab (h.trans e.symm)⟩
  · exact ⟨a, ha, h⟩

theorem squares_pos {l : List Rat} {a b : Rat} (ha : a ∈ l) (hb : b ∈ l) (hab : a ≠ b) (c : Rat) :
    0 < (l.map fun t => (c - t) ^ 2).sum := by
  obtain ⟨t, ht, hc⟩ := away ha hb hab c
  refine sum_pos ?_ (List.mem_map.2 ⟨t, ht, rfl⟩) ?_
  · intro x hx
    obtain ⟨_, _, rfl⟩ := List.mem_map.1 hx
    positivity
  · have : c - t ≠ 0 := sub_ne_zero.2 (Ne.symm hc)
    positivity

theorem distances_pos {l : List Rat} {a b : Rat} (ha : a ∈ l) (hb : b ∈ l) (hab : a ≠ b) (c : Rat) :
    0 < (l.map fun t => |c - t|).sum := by
  obtain ⟨t, ht, hc⟩ := away ha hb hab c
  refine sum_pos ?_ (List.mem_map.2 ⟨t, ht, rfl⟩) ?_
  · intro x hx
    obtain ⟨_, _, rfl⟩ := List.mem_map.1 hx
    positivity
  · exact abs_pos.2 (sub_ne_zero.2 (Ne.symm hc))

/-! ## Distances and the median -/

/-- `m` lies between the `i`-th smallest and the `i`-th greatest value, for all `i`. -/
def Central (s : List Rat) (m : Rat) : Prop :=
  ∀ i j : Nat, (hi : i < s.length) → (hj : j < s.length) → i + j + 1 = s.length → i ≤ j → s[i] ≤ m ∧ m ≤ s[j]

theorem twice (s : List Rat) (f : Rat → Rat) :
    2 * (s.map f).sum = ∑ i : Fin s.length, (f s[i.val] + f (s[(Fin.rev i).val])) := by
  have h1 : (s.map f).sum = ∑ i : Fin s.length, f s[i.val] := (Fin.sum_univ_fun_getElem s f).symm
  have h2 : ∑ i : Fin s.length, f (s[(Fin.rev i).val]) = ∑ i : Fin s.length, f s[i.val] :=
    Equiv.sum_comp Fin.revPerm fun i : Fin s.length => f s[i.val]
  rw [Finset.sum_add_distrib, h2, ← h1]
  ring

theorem central_best {s : List Rat} {m : Rat} (hm : Central s m) (c : Rat) :
    (s.map fun t => |m - t|).sum ≤ (s.map fun t => |c - t|).sum := by
  have key : 2 * (s.map fun t => |m - t|).sum ≤ 2 * (s.map fun t => |c - t|).sum := by
    rw [twice, twice]
    apply Finset.sum_le_sum
    intro i _
    have hr : (Fin.rev i).val = s.length - (i.val + 1) := Fin.val_rev i
    have hi := i.isLt
    have tri : ∀ a b : Rat, a ≤ m → m ≤ b → |m - a| + |m - b| ≤ |c - a| + |c - b| := by
      intro a b ha hb
      rw [abs_of_nonneg (by linarith), abs_of_nonpos (by linarith : m - b ≤ 0)]
      have := le_abs_self (c - a)
      have := neg_le_abs (c - b)
      linarith
    rcases Nat.le_total i.val (Fin.rev i).val with h | h
    · obtain ⟨ha, hb⟩ := hm i.val (Fin.rev i).val hi (Fin.rev i).isLt (by omega) h
      exact tri _ _ ha hb
    · obtain ⟨ha, hb⟩ := hm (Fin.rev i).val i.val (Fin.rev i).isLt hi (by omega) h
      have := tri _ _ ha hb
      linarith
  linarith

theorem sorted_le {s : List Rat} (h : s.Pairwise (· ≤ ·)) {i j : Nat} (hi : i < s.length) (hj : j < s.length) (hij : i ≤ j) :
    s[i] ≤ s[j] := by
  rcases Nat.lt_or_eq_of_le hij with h' | rfl
  · exact List.pairwise_iff_getElem.1 h i j hi hj h'
  · exact le_refl _

theorem median_central {y : List Rat} (hne : y ≠ []) :
    ∃ (m : Rat) (s : List Rat), median (y.map .fin) = .fin m ∧ s.Perm y ∧ Central s m := by
  obtain ⟨s, hp, hs, h1, h2⟩ := FigureProps.C33_median hne
  have hl := hp.length_eq
  have hpos := List.length_pos_iff.2 hne
  rcases Nat.even_or_odd' y.length with ⟨k, hk | hk⟩
  · obtain ⟨k, rfl⟩ : ∃ k', k = k' + 1 := ⟨k - 1, by omega⟩
    obtain ⟨a, b, ha, hb, hm⟩ := h2 k (by omega)
    obtain ⟨hka, rfl⟩ := List.getElem?_eq_some_iff.1 ha
    obtain ⟨hkb, rfl⟩ := List.getElem?_eq_some_iff.1 hb
    refine ⟨_, s, hm, hp, fun i j hi hj hij hle => ?_⟩
    have e1 := sorted_le hs hi hka (by omega)
    have e2 := sorted_le hs hkb hj (by omega)
    have e3 := sorted_le hs hka hkb (by omega)
    constructor <;> linarith
  · obtain ⟨a, ha, hm⟩ := h1 k (by omega)
    obtain ⟨hka, rfl⟩ := List.getElem?_eq_some_iff.1 ha
    exact ⟨_, s, hm, hp, fun i j hi hj hij hle => ⟨sorted_le hs hi hka (by omega), sorted_le hs hka hj (by omega)⟩⟩

theorem median_best {y : List Rat} (hne : y ≠ []) : ∃ m : Rat, median (y.map .fin) = .fin m ∧
    ∀ c : Rat, (y.map fun t => |m - t|).sum ≤ (y.map fun t => |c - t|).sum := by
  obtain ⟨m, s, hm, hp, hc⟩ := median_central hne
  refine ⟨m, hm, fun c => ?_⟩
  rw [← (hp.map fun t => |m - t|).sum_eq, ← (hp.map fun t => |c - t|).sum_eq]
  exact central_best hc c

/-! ## Infinite errors -/

theorem foldl_add_inf (l : List Num) (h : ∀ x ∈ l, x ≠ .nan ∧ x ≠ .ninf) : l.foldl Num.add .inf = .inf := by
  induction l with
  | nil => rfl
  | cons x l ih =>
    obtain ⟨h1, h2⟩ := h x List.mem_cons_self
    have : Num.add .inf x = .inf := by cases x <;> simp_all [Num.add]
    rw [List.foldl_cons, this]
    exact ih fun y hy => h y (List.mem_cons_of_mem _ hy)

theorem foldl_add_mem {l : List Num} (h : ∀ x ∈ l, x ≠ .nan ∧ x ≠ .ninf) (hi : Num.inf ∈ l) (q : Rat) :
    l.foldl Num.add (.fin q) = .inf := by
  induction l generalizing q with
  | nil => cases hi
  | cons x l ih =>
    have hl : ∀ y ∈ l, y ≠ .nan ∧ y ≠ .ninf := fun y hy => h y (List.mem_cons_of_mem _ hy)
    obtain ⟨h1, h2⟩ := h x List.mem_cons_self
    rw [List.foldl_cons]
    cases x with
    | nan => exact absurd rfl h1
    | ninf => exact absurd rfl h2
    | inf => exact foldl_add_inf l hl
    | fin a =>
      refine ih hl ?_ (q + a)
      rcases List.mem_cons.1 hi with hi | hi
      · cases hi
      · exact hi

theorem nanmean_inf {l : List Num} (h : ∀ x ∈ l, x ≠ .ninf) (hi : Num.inf ∈ l) : Num.nanmean l = .inf := by
  unfold Num.nanmean Num.mean Num.sum
  rw [foldl_add_mem]
  · have : ¬ ((Num.dropna l).length : Rat) < 0 := not_lt.2 (by positivity)
    simp [Num.div, this]
  · intro x hx
    obtain ⟨hx, hn⟩ := List.mem_filter.1 hx
    refine ⟨?_, h x hx⟩
    rintro rfl
    cases hn
  · exact List.mem_filter.2 ⟨hi, rfl⟩

/-- Infinite, in either direction -/
def Infinite (x : Num) : Prop := x = .inf ∨ x = .ninf

theorem errors_infinite {pred : List Num} {y : List Rat} (hl : pred.length = y.length) (h : ∃ p ∈ pred, Infinite p) :
    ∃ e, errors pred (y.map .fin) = .ok e ∧ ∃ x ∈ e, Infinite x := by
  refine ⟨_, if_neg (by simpa using hl), ?_⟩
  obtain ⟨p, hp, hi⟩ := h
  obtain ⟨k, hk, rfl⟩ := List.getElem_of_mem hp
  refine ⟨Num.sub pred[k] (.fin (y[k]'(by omega))), ?_, ?_⟩
  · refine List.mem_iff_getElem.2 ⟨k, by simp; omega, by simp⟩
  · rcases hi with hi | hi <;> rw [hi]
    · exact .inl rfl
    · exact .inr rfl

theorem measure_infinite {f : Num → Num} (hf : ∀ x, f x ≠ .ninf) (h1 : f .inf = .inf) (h2 : f .ninf = .inf) {e : List Num}
    (h : ∃ x ∈ e, Infinite x) : Num.nanmean (e.map f) = .inf := by
  apply nanmean_inf
  · intro x hx
    obtain ⟨z, _, rfl⟩ := List.mem_map.1 hx
    exact hf z
  · obtain ⟨x, hx, hi⟩ := h
    refine List.mem_map.2 ⟨x, hx, ?_⟩
    rcases hi with rfl | rfl
    · exact h1
    · exact h2

theorem square_ninf (x : Num) : square x ≠ .ninf := by
  cases x <;> simp [square, Num.mul]

theorem abs_ninf (x : Num) : x.abs ≠ .ninf := by
  cases x <;> simp [Num.abs]

theorem mse_infinite {pred : List Num} {y : List Rat} (hl : pred.length = y.length) (h : ∃ p ∈ pred, Infinite p) :
    mse pred (y.map .fin) = .ok .inf := by
  obtain ⟨e, he, hx⟩ := errors_infinite hl h
  simp only [mse, he, Bind.bind, Except.bind]
  rw [measure_infinite square_ninf rfl rfl hx]

theorem mae_infinite {pred : List Num} {y : List Rat} (hl : pred.length = y.length) (h : ∃ p ∈ pred, Infinite p) :
    mae pred (y.map .fin) = .ok .inf := by
  obtain ⟨e, he, hx⟩ := errors_infinite hl h
  simp only [mae, he, Bind.bind, Except.bind]
  rw [measure_infinite abs_ninf rfl rfl hx]

end Verif.Baseline
