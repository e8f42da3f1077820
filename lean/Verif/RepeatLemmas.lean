import Verif.RepeatSpec
import Verif.RowOrderLemmas
import Verif.RuleStatProps

/-!
# The same points several times: lemmas
-/

namespace Verif.Repeat

open Verif Rule Spec

variable {α β γ δ : Type}

theorem copies_succ (k : Nat) (l : List α) : copies (k + 1) l = l ++ copies k l := by
  simp [copies, List.replicate_succ]

theorem copies_zero (l : List α) : copies 0 l = [] := rfl

theorem copies_map (k : Nat) (f : α → β) (l : List α) : (copies k l).map f = copies k (l.map f) := by
  simp [copies, List.map_flatten]

theorem copies_filter (k : Nat) (p : α → Bool) (l : List α) : (copies k l).filter p = copies k (l.filter p) := by
  induction k with
  | zero => rfl
  | succ k ih => simp [copies_succ, ih]

theorem copies_filterMap (k : Nat) (f : α → Option β) (l : List α) : (copies k l).filterMap f = copies k (l.filterMap f) := by
  induction k with
  | zero => rfl
  | succ k ih => simp [copies_succ, ih]

theorem copies_length (k : Nat) (l : List α) : (copies k l).length = k * l.length := by
  simp [copies]

theorem copies_sum (k : Nat) (l : List Rat) : (copies k l).sum = k * l.sum := by
  induction k with
  | zero => simp [copies_zero]
  | succ k ih =>
    rw [copies_succ, List.sum_append, ih]
    push_cast
    ring

theorem copies_count [DecidableEq α] (k : Nat) (l : List α) (a : α) : (copies k l).count a = k * l.count a := by
  induction k with
  | zero => simp [copies_zero]
  | succ k ih =>
    rw [copies_succ, List.count_append, ih]
    ring

theorem mem_copies {k : Nat} (hk : 0 < k) {l : List α} {a : α} : a ∈ copies k l ↔ a ∈ l := by
  simp [copies, List.mem_flatten, List.mem_replicate]
  omega

theorem copies_nil {k : Nat} (hk : 0 < k) {l : List α} : copies k l = [] ↔ l = [] := by
  rw [← List.length_eq_zero_iff, ← List.length_eq_zero_iff (l := l), copies_length]
  simp
  omega

/-- The pairs of `v'` and `y'` are `k` times those of `v` and `y`. -/
def Pairs (k : Nat) (v : List α) (y : List β) (v' : List α) (y' : List β) : Prop :=
  v.length = y.length ∧ v'.length = y'.length ∧ (v'.zip y').Perm (copies k (v.zip y))

theorem Pairs.left {k : Nat} {v v' : List α} {y y' : List β} (h : Pairs k v y v' y') : v'.Perm (copies k v) := by
  have h1 := h.1
  have h2 := h.2.1
  have := h.2.2.map Prod.fst
  rwa [copies_map, List.map_fst_zip (by omega), List.map_fst_zip (by omega)] at this

theorem Pairs.right {k : Nat} {v v' : List α} {y y' : List β} (h : Pairs k v y v' y') : y'.Perm (copies k y) := by
  have h1 := h.1
  have h2 := h.2.1
  have := h.2.2.map Prod.snd
  rwa [copies_map, List.map_snd_zip (by omega), List.map_snd_zip (by omega)] at this

theorem Pairs.map {k : Nat} {v v' : List α} {y y' : List β} (h : Pairs k v y v' y') (f : α → γ) (g : β → δ) :
    Pairs k (v.map f) (y.map g) (v'.map f) (y'.map g) := by
  refine ⟨by simpa using h.1, by simpa using h.2.1, ?_⟩
  rw [List.zip_map, List.zip_map, ← copies_map]
  exact h.2.2.map _

theorem Pairs.activated {k : Nat} {u u' : List Bool} {y y' : List β} (h : Pairs k u y u' y') :
    (activated u' y').Perm (copies k (activated u y)) := by
  unfold Spec.activated
  rw [← copies_map, ← copies_filter]
  exact (h.2.2.filter _).map _

theorem pairs_of {k : Nat} {xs xs' : Xs} {y y' : List β} (h : Repeated k xs y xs' y') :
    Pairs k (RowOrder.rowsOf xs) y (RowOrder.rowsOf xs') y' := by
  cases xs with
  | arr m =>
    cases xs' with
    | frame f => exact h.elim
    | arr m' => exact h.2
  | frame f =>
    cases xs' with
    | arr m => exact h.elim
    | frame f' => exact h.2

/-- The same exception, or one decision about each row -/
theorem evaluate_both {k : Nat} {xs xs' : Xs} {y y' : List β} (h : Repeated k xs y xs' y') (c : Cond) :
    (∃ e, Rule.evaluate c xs = .error e ∧ Rule.evaluate c xs' = .error e) ∨
      ∃ f : List Num → Bool, Rule.evaluate c xs = .ok ((RowOrder.rowsOf xs).map fun r => (f r).toNat) ∧
        Rule.evaluate c xs' = .ok ((RowOrder.rowsOf xs').map fun r => (f r).toNat) := by
  cases xs with
  | arr m =>
    cases xs' with
    | frame f => exact h.elim
    | arr m' =>
      obtain ⟨n, rows⟩ := m
      obtain ⟨n', rows'⟩ := m'
      obtain ⟨rfl, h1, h2, hp⟩ := h
      rcases RowOrder.evaluate_rows c n with ⟨e, he⟩ | ⟨f, hf⟩
      · exact .inl ⟨e, he rows, he rows'⟩
      · exact .inr ⟨f, hf rows, hf rows'⟩
  | frame f =>
    cases xs' with
    | arr m => exact h.elim
    | frame f' =>
      obtain ⟨n, rows⟩ := f
      obtain ⟨n', rows'⟩ := f'
      obtain ⟨rfl, h1, h2, hp⟩ := h
      rcases RowOrder.evaluateFrame_rows c n with ⟨e, he⟩ | ⟨f, hf⟩
      · exact .inl ⟨e, he rows, he rows'⟩
      · exact .inr ⟨f, hf rows, hf rows'⟩

/-- The activation vectors which two calls with features use -/
theorem uses_both {E : Env} {k : Nat} {xs xs' : Xs} {y y' : List β} (h : Repeated k xs y xs' y') {r : Rule} {v v' : List Nat}
    (hv : r.evaluateActivation E xs = .ok v) (hv' : r.evaluateActivation E xs' = .ok v') :
    ∃ u u' : List Bool, v = arr u ∧ v' = arr u' ∧ Pairs k u y u' y' := by
  rcases evaluate_both h r.cond with ⟨e, he, -⟩ | ⟨f, h1, h2⟩
  · simp [evaluateActivation, he, bind, Except.bind] at hv
  · refine ⟨(RowOrder.rowsOf xs).map f, (RowOrder.rowsOf xs').map f, ?_, ?_, ?_⟩
    · simp only [evaluateActivation, h1, bind, Except.bind] at hv
      split at hv
      · cases hv
      · cases hv
        simp [arr, Function.comp_def]
    · simp only [evaluateActivation, h2, bind, Except.bind] at hv'
      split at hv'
      · cases hv'
      · cases hv'
        simp [arr, Function.comp_def]
    · have := (pairs_of h).map f (id : β → β)
      simpa using this

end Verif.Repeat
