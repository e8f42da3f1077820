import Verif.RuleSetMake
import Verif.RuleSetOps
import Mathlib.Algebra.Order.Ring.Int
import Mathlib.Tactic.Linarith
import Mathlib.Tactic.Ring

/-!
# Lemmas on slices
-/

namespace Verif.RuleSet

open Verif

theorem lt_ceil {d k n : Int} (hk : 0 < k) : n < (d + k - 1) / k ↔ n * k < d := by
  have h : n < (d + k - 1) / k ↔ n + 1 ≤ (d + k - 1) / k := Iff.rfl
  rw [h, Int.le_ediv_iff_mul_le hk, Int.add_mul]
  constructor <;> intro h <;> linarith

theorem mem_pyRange_up {a b k x : Int} (hk : 0 < k) : x ∈ pyRange a b k ↔ a ≤ x ∧ x < b ∧ k ∣ x - a := by
  have hn : ¬ k < 0 := by omega
  simp only [pyRange, if_neg hn, List.mem_map, List.mem_range]
  constructor
  · rintro ⟨i, hi, rfl⟩
    have h1 : (i : Int) < (b - a + k - 1) / k := by omega
    rw [lt_ceil hk] at h1
    have h2 : 0 ≤ (i : Int) * k := Int.mul_nonneg (by omega) (by omega)
    exact ⟨by omega, by omega, ⟨i, by ring⟩⟩
  · rintro ⟨h1, h2, c, hc⟩
    have hc0 : 0 ≤ c := by
      by_contra hneg
      have : k * c < 0 := Int.mul_neg_of_pos_of_neg hk (by omega)
      omega
    have h3 : c * k < b - a := by rw [Int.mul_comm]; omega
    rw [← lt_ceil hk] at h3
    refine ⟨c.toNat, by omega, ?_⟩
    rw [Int.toNat_of_nonneg hc0, Int.mul_comm]
    omega

theorem mem_pyRange_down {a b k x : Int} (hk : k < 0) : x ∈ pyRange a b k ↔ x ≤ a ∧ b < x ∧ k ∣ x - a := by
  have hp : 0 < -k := by omega
  simp only [pyRange, if_pos hk, List.mem_map, List.mem_range]
  constructor
  · rintro ⟨i, hi, rfl⟩
    have h1 : (i : Int) < (a - b + (-k) - 1) / (-k) := by omega
    rw [lt_ceil hp] at h1
    have h2 : 0 ≤ (i : Int) * (-k) := Int.mul_nonneg (by omega) (by omega)
    rw [Int.mul_neg] at h1 h2
    exact ⟨by omega, by omega, ⟨i, by ring⟩⟩
  · rintro ⟨h1, h2, c, hc⟩
    have hc0 : 0 ≤ c := by
      by_contra hneg
      have : 0 < k * c := Int.mul_pos_of_neg_of_neg hk (by omega)
      omega
    have h3 : c * (-k) < a - b := by rw [Int.mul_neg, Int.mul_comm]; omega
    rw [← lt_ceil hp] at h3
    refine ⟨c.toNat, by omega, ?_⟩
    rw [Int.toNat_of_nonneg hc0, Int.mul_comm]
    omega

theorem pyRange_up {a b k : Int} (hk : 0 < k) : (pyRange a b k).Pairwise (· < ·) := by
  rw [pyRange, List.pairwise_map]
  refine List.pairwise_lt_range.imp fun {i j} h => ?_
  have : (i : Int) * k < j * k := Int.mul_lt_mul_of_pos_right (by omega) hk
  omega

theorem pyRange_down {a b k : Int} (hk : k < 0) : (pyRange a b k).Pairwise (· > ·) := by
  rw [pyRange, List.pairwise_map]
  refine List.pairwise_lt_range.imp fun {i j} h => ?_
  have : (j : Int) * k < i * k := Int.mul_lt_mul_of_neg_right (by omega) hk
  omega

theorem range_up {a a' b k x L : Int} {B : Prop} (ha : a = a' ∨ (L ≤ a ∧ L ≤ a')) (h0 : 0 ≤ a)
    (hb : 0 ≤ x → (x < b ↔ x < L ∧ B)) :
    (a ≤ x ∧ x < b ∧ k ∣ x - a) ↔ 0 ≤ x ∧ x < L ∧ a' ≤ x ∧ B ∧ k ∣ x - a' := by
  rcases ha with rfl | ⟨h1, h2⟩
  · constructor
    · rintro ⟨h1, h2, h3⟩
      obtain ⟨h4, h5⟩ := (hb (by omega)).1 h2
      exact ⟨by omega, h4, h1, h5, h3⟩
    · rintro ⟨h1, h2, h3, h4, h5⟩
      exact ⟨h3, (hb h1).2 ⟨h2, h4⟩, h5⟩
  · constructor
    · rintro ⟨h3, h4, -⟩
      have := ((hb (by omega)).1 h4).1
      omega
    · rintro ⟨h3, h4, h5, -⟩
      omega

theorem range_down {a a' b k x L : Int} {B : Prop} (ha : a = a' ∨ (a < 0 ∧ a' < 0)) (h0 : a < L)
    (hb : x < L → (b < x ↔ 0 ≤ x ∧ B)) :
    (x ≤ a ∧ b < x ∧ k ∣ x - a) ↔ 0 ≤ x ∧ x < L ∧ x ≤ a' ∧ B ∧ k ∣ x - a' := by
  rcases ha with rfl | ⟨h1, h2⟩
  · constructor
    · rintro ⟨h1, h2, h3⟩
      obtain ⟨h4, h5⟩ := (hb (by omega)).1 h2
      exact ⟨h4, by omega, h1, h5, h3⟩
    · rintro ⟨h1, h2, h3, h4, h5⟩
      exact ⟨h3, (hb h2).2 ⟨h1, h4⟩, h5⟩
  · constructor
    · rintro ⟨h3, h4, -⟩
      have := ((hb (by omega)).1 h4).1
      omega
    · rintro ⟨h3, h4, h5, -⟩
      omega

end Verif.RuleSet
