import Verif.Rounded
import Verif.RFunLemmas
import Mathlib.Tactic.Linarith
import Mathlib.Algebra.Order.Field.Power
import Mathlib.Algebra.Order.Round

/-!
# Lemmas about figures computed with rounding
-/

namespace Verif.Rounded

open Verif Spec RFun

/-! ## Doubles -/

theorem nearest_close (x : Rat) : |(nearest x : Rat) - x| ≤ 1 / 2 := by
  have h1 := Int.floor_le x
  have h2 := Int.lt_floor_add_one x
  unfold nearest
  split
  · rw [abs_le]; constructor <;> push_cast <;> linarith
  · split
    · rw [abs_le]; constructor <;> push_cast <;> linarith
    · split
      · rw [abs_le]; constructor <;> push_cast <;> linarith
      · rw [abs_le]; constructor <;> push_cast <;> linarith

theorem nearest_int (n : Int) : nearest n = n := by
  unfold nearest
  rw [if_pos] <;> simp

theorem nearest_mono {x y : Rat} (h : x ≤ y) : nearest x ≤ nearest y := by
  rcases (Int.floor_le_floor h).lt_or_eq with hf | hf
  · have hx : nearest x ≤ ⌊x⌋ + 1 := by
      unfold nearest
      split_ifs <;> omega
    have hy : ⌊y⌋ ≤ nearest y := by
      unfold nearest
      split_ifs <;> omega
    omega
  · unfold nearest
    rw [hf]
    split_ifs <;> first | omega | (exfalso; linarith)

theorem double_close (x : Rat) : |double x - x| ≤ 1 / 2 ^ 53 * |x| := by
  unfold double
  split
  · rename_i h
    simp [h]
  · rename_i h
    have hx : 0 < |x| := abs_pos.2 h
    have hlog := Int.zpow_log_le_self (b := 2) (by norm_num) hx
    generalize Int.log 2 |x| = e at hlog ⊢
    have hu : (0 : Rat) < 2 ^ (e - 52) := by positivity
    have hn := nearest_close (x / 2 ^ (e - 52))
    have key : (nearest (x / 2 ^ (e - 52)) : Rat) * 2 ^ (e - 52) - x = (nearest (x / 2 ^ (e - 52)) - x / 2 ^ (e - 52)) * 2 ^ (e - 52) := by
      field_simp
    rw [key, abs_mul, abs_of_pos hu]
    have h3 : (2 : Rat) ^ (e - 52) = 2 ^ e / 2 ^ 52 := by
      rw [zpow_sub₀ (by norm_num)]
      norm_num
    have h4 : ((2 : Nat) : Rat) ^ e = 2 ^ e := by norm_num
    rw [h4] at hlog
    calc _ ≤ 1 / 2 * (2 : Rat) ^ (e - 52) := by gcongr
      _ = 1 / 2 ^ 53 * 2 ^ e := by rw [h3]; ring
      _ ≤ _ := by gcongr

/-- The bounds of the exponent -/
theorem exponent {x : Rat} (h : x ≠ 0) : (2 : Rat) ^ Int.log 2 |x| ≤ |x| ∧ |x| < (2 : Rat) ^ (Int.log 2 |x| + 1) := by
  have hx : 0 < |x| := abs_pos.2 h
  have h1 := Int.zpow_log_le_self (b := 2) (by norm_num) hx
  have h2 := Int.lt_zpow_succ_log_self (b := 2) (by norm_num) |x|
  exact ⟨by exact_mod_cast h1, by exact_mod_cast h2⟩

theorem scale (e : Int) (k : Nat) : (2 : Rat) ^ (e + k - 52) = 2 ^ k * 2 ^ (e - 52) := by
  rw [show e + k - 52 = (e - 52) + (k : Int) by ring, zpow_add₀ (by norm_num), zpow_natCast]
  ring

theorem le_scaled {x : Rat} {e n : Int} (h : (n : Rat) * 2 ^ (e - 52) ≤ x) : (n : Rat) * 2 ^ (e - 52) ≤ nearest (x / 2 ^ (e - 52)) * 2 ^ (e - 52) := by
  have hu : (0 : Rat) < 2 ^ (e - 52) := by positivity
  have h1 : (n : Rat) ≤ x / 2 ^ (e - 52) := (le_div_iff₀ hu).2 h
  have h2 := nearest_mono h1
  rw [nearest_int] at h2
  have h3 : (n : Rat) ≤ nearest (x / 2 ^ (e - 52)) := by exact_mod_cast h2
  gcongr

theorem scaled_le {x : Rat} {e n : Int} (h : x ≤ (n : Rat) * 2 ^ (e - 52)) : nearest (x / 2 ^ (e - 52)) * 2 ^ (e - 52) ≤ (n : Rat) * 2 ^ (e - 52) := by
  have hu : (0 : Rat) < 2 ^ (e - 52) := by positivity
  have h1 : x / 2 ^ (e - 52) ≤ (n : Rat) := (div_le_iff₀ hu).2 h
  have h2 := nearest_mono h1
  rw [nearest_int] at h2
  have h3 : (nearest (x / 2 ^ (e - 52)) : Rat) ≤ n := by exact_mod_cast h2
  gcongr

theorem pow_scaled (e : Int) : (2 : Rat) ^ e = ((2 ^ 52 : Int) : Rat) * 2 ^ (e - 52) ∧
    (2 : Rat) ^ (e + 1) = ((2 ^ 53 : Int) : Rat) * 2 ^ (e - 52) := by
  have h1 := scale e 52
  have h2 := scale e 53
  constructor
  · rw [show e + (52 : Nat) - 52 = e by push_cast; ring] at h1
    rw [h1]; norm_num
  · rw [show e + (53 : Nat) - 52 = e + 1 by push_cast; ring] at h2
    rw [h2]; norm_num

theorem double_pos {x : Rat} (h : 0 < x) : (2 : Rat) ^ Int.log 2 |x| ≤ double x ∧ double x ≤ (2 : Rat) ^ (Int.log 2 |x| + 1) := by
  obtain ⟨h1, h2⟩ := exponent h.ne'
  unfold double
  rw [if_neg h.ne']
  rw [abs_of_pos h] at *
  generalize Int.log 2 x = e at *
  obtain ⟨p1, p2⟩ := pow_scaled e
  rw [p1] at h1 ⊢
  rw [p2] at h2 ⊢
  exact ⟨le_scaled h1, scaled_le h2.le⟩

theorem double_neg {x : Rat} (h : x < 0) : double x ≤ -(2 : Rat) ^ Int.log 2 |x| ∧ -(2 : Rat) ^ (Int.log 2 |x| + 1) ≤ double x := by
  obtain ⟨h1, h2⟩ := exponent h.ne
  unfold double
  rw [if_neg h.ne]
  rw [abs_of_neg h] at *
  generalize Int.log 2 (-x) = e at *
  obtain ⟨p1, p2⟩ := pow_scaled e
  rw [p1] at h1 ⊢
  rw [p2] at h2 ⊢
  rw [← neg_mul, ← neg_mul, ← Int.cast_neg, ← Int.cast_neg]
  constructor
  · apply scaled_le
    push_cast at h1 ⊢
    linarith
  · apply le_scaled
    push_cast at h2 ⊢
    linarith

theorem double_same {x y : Rat} (hx : x ≠ 0) (hy : y ≠ 0) (h : x ≤ y) (he : Int.log 2 |x| = Int.log 2 |y|) : double x ≤ double y := by
  unfold double
  rw [if_neg hx, if_neg hy, he]
  generalize Int.log 2 |y| = e
  have hu : (0 : Rat) < 2 ^ (e - 52) := by positivity
  have h1 : x / 2 ^ (e - 52) ≤ y / 2 ^ (e - 52) := by gcongr
  have h2 : (nearest (x / 2 ^ (e - 52)) : Rat) ≤ nearest (y / 2 ^ (e - 52)) := by exact_mod_cast nearest_mono h1
  gcongr

theorem log_lt_pow {a b : Int} (h : a < b) : (2 : Rat) ^ (a + 1) ≤ 2 ^ b := zpow_le_zpow_right₀ (by norm_num) (by omega)

theorem log_le_of {x y : Rat} (hx : x ≠ 0) (h : |x| ≤ |y|) : Int.log 2 |x| ≤ Int.log 2 |y| :=
  Int.log_mono_right (abs_pos.2 hx) h

theorem double_mono (x y : Rat) (h : x ≤ y) : double x ≤ double y := by
  rcases lt_trichotomy x 0 with hx | hx | hx
  · rcases lt_trichotomy y 0 with hy | hy | hy
    · have hxy : |y| ≤ |x| := by rw [abs_of_neg hx, abs_of_neg hy]; linarith
      rcases (log_le_of hy.ne hxy).lt_or_eq with he | he
      · have := log_lt_pow he
        linarith [(double_neg hx).1, (double_neg hy).2]
      · exact double_same hx.ne hy.ne h he.symm
    · have h1 : (0 : Rat) < 2 ^ Int.log 2 |x| := by positivity
      have h2 := (double_neg hx).1
      rw [show double y = 0 by simp [double, hy]]
      linarith
    · have h1 : (0 : Rat) < 2 ^ Int.log 2 |x| := by positivity
      have h2 : (0 : Rat) < 2 ^ Int.log 2 |y| := by positivity
      linarith [(double_neg hx).1, (double_pos hy).1]
  · rcases lt_or_eq_of_le (hx ▸ h : 0 ≤ y) with hy | hy
    · have h2 : (0 : Rat) < 2 ^ Int.log 2 |y| := by positivity
      rw [show double x = 0 by simp [double, hx]]
      linarith [(double_pos hy).1]
    · rw [hx, hy]
  · have hy : 0 < y := lt_of_lt_of_le hx h
    have hxy : |x| ≤ |y| := by rw [abs_of_pos hx, abs_of_pos hy]; exact h
    rcases (log_le_of hx.ne' hxy).lt_or_eq with he | he
    · have := log_lt_pow he
      linarith [(double_pos hx).2, (double_pos hy).1]
    · exact double_same hx.ne' hy.ne' h he

/-- Integers of at most 53 binary digits are doubles. -/
theorem double_int (n : Int) (h : |n| ≤ 2 ^ 53) : double n = n := by
  by_cases h0 : n = 0
  · simp [h0, double]
  · have hn : (n : Rat) ≠ 0 := by exact_mod_cast h0
    obtain ⟨h1, h2⟩ := exponent hn
    have key : ∀ (e : Int) (m : Int), (n : Rat) = m * 2 ^ (e - 52) → (nearest (n / 2 ^ (e - 52)) : Rat) * 2 ^ (e - 52) = n := by
      intro e m hm
      have hu : (2 : Rat) ^ (e - 52) ≠ 0 := by positivity
      have : (n : Rat) / 2 ^ (e - 52) = m := by rw [hm]; field_simp
      rw [this, nearest_int, ← hm]
    unfold double
    rw [if_neg hn]
    generalize Int.log 2 |(n : Rat)| = e at *
    have he : e ≤ 53 := by
      by_contra hc
      have h3 : (2 : Rat) ^ (54 : Int) ≤ 2 ^ e := zpow_le_zpow_right₀ (by norm_num) (by omega)
      have h4 : |(n : Rat)| ≤ 2 ^ 53 := by exact_mod_cast h
      have : (2 : Rat) ^ (54 : Int) = 2 ^ 54 := by norm_cast
      rw [this] at h3
      norm_num at h3 h4
      linarith
    rcases he.lt_or_eq with he | he
    · obtain ⟨k, hk⟩ : ∃ k : Nat, 52 - e = k := ⟨(52 - e).toNat, by omega⟩
      apply key e (n * 2 ^ k)
      have : (2 : Rat) ^ (e - 52) = (2 ^ k)⁻¹ := by rw [show e - 52 = -(k : Int) by omega, zpow_neg, zpow_natCast]
      rw [this]
      push_cast
      field_simp
    · subst he
      have h3 : (2 : Rat) ^ (53 : Int) = 2 ^ 53 := by norm_cast
      rw [h3] at h1
      have h4 : (2 ^ 53 : Int) ≤ |n| := by exact_mod_cast h1
      have h5 : |n| = 2 ^ 53 := le_antisymm h h4
      have hu : (2 : Rat) ^ ((53 : Int) - 52) = 2 := by norm_num
      rcases abs_eq (by norm_num : (0 : Int) ≤ 2 ^ 53) |>.1 h5 with h6 | h6
      · apply key 53 (2 ^ 52); rw [hu, h6]; norm_num
      · apply key 53 (-2 ^ 52); rw [hu, h6]; norm_num

theorem inOrder_adds (fl : Rat → Rat) (l : List Rat) (h : l ≠ []) : ∃ d, AddsUp fl d l (inOrder fl l) := by
  cases l with
  | nil => exact absurd rfl h
  | cons x l =>
    have key : ∀ (l pre : List Rat) (a : Rat) (d : Nat), AddsUp fl d pre a → ∃ d', AddsUp fl d' (pre ++ l) (l.foldl (fun a b => fl (a + b)) a) := by
      intro l
      induction l with
      | nil => intro pre a d h; exact ⟨d, by simpa using h⟩
      | cons b l ih =>
        intro pre a d h
        obtain ⟨d', h'⟩ := ih (pre ++ [b]) _ _ (.add h (.one b) (List.Perm.refl _))
        exact ⟨d', by simpa using h'⟩
    exact key l [x] x 0 (.one x)

/-- Doubles, added in order -/
def doubles : Machine where
  fl := double
  u := 1 / 2 ^ 53
  u_nonneg := by norm_num
  u_lt_one := by norm_num
  close := double_close
  mono := double_mono
  one := by exact_mod_cast double_int 1 (by norm_num)
  sum := inOrder double
  sum_adds := inOrder_adds double

/-- Exact numbers -/
def exact : Machine where
  fl x := x
  u := 0
  u_nonneg := le_refl _
  u_lt_one := by norm_num
  close := by simp
  mono := fun _ _ h => h
  one := rfl
  sum := inOrder fun x => x
  sum_adds := inOrder_adds _

/-! ## Rounding -/

section
variable (A : Machine)

theorem fl_zero : A.fl 0 = 0 := by
  have := A.close 0
  simpa using this

theorem fl_le {x : Rat} (h : 0 ≤ x) : A.fl x ≤ x * (1 + A.u) := by
  have := abs_le.1 (A.close x)
  rw [abs_of_nonneg h] at this
  linarith [this.2]

theorem le_fl {x : Rat} (h : 0 ≤ x) : x * (1 - A.u) ≤ A.fl x := by
  have := abs_le.1 (A.close x)
  rw [abs_of_nonneg h] at this
  linarith [this.1]

theorem fl_nonneg {x : Rat} (h : 0 ≤ x) : 0 ≤ A.fl x := fl_zero A ▸ A.mono 0 x h

theorem fl_nonpos {x : Rat} (h : x ≤ 0) : A.fl x ≤ 0 := fl_zero A ▸ A.mono x 0 h

theorem fl_pos {x : Rat} (h : 0 < x) : 0 < A.fl x :=
  lt_of_lt_of_le (mul_pos h (by linarith [A.u_lt_one])) (le_fl A h.le)

theorem fl_neg {x : Rat} (h : x < 0) : A.fl x < 0 := by
  have := abs_le.1 (A.close x)
  rw [abs_of_neg h] at this
  nlinarith [this.2, A.u_lt_one]

theorem fl_eq_zero {x : Rat} : A.fl x = 0 ↔ x = 0 := by
  constructor
  · intro h
    rcases lt_trichotomy x 0 with hx | hx | hx
    · exact absurd h (fl_neg A hx).ne
    · exact hx
    · exact absurd h (fl_pos A hx).ne'
  · rintro rfl; exact fl_zero A

theorem abs_fl_le (x : Rat) : |A.fl x| ≤ (1 + A.u) * |x| := by
  have h1 := A.close x
  have h2 : |A.fl x| ≤ |A.fl x - x| + |x| := by
    have := abs_add_le (A.fl x - x) x
    simpa using this
  linarith

/-! ## Sums -/

variable {A}

theorem AddsUp.lt {d : Nat} {l : List Rat} {s : Rat} {fl : Rat → Rat} (h : AddsUp fl d l s) : d < l.length := by
  induction h with
  | one x => simp
  | add _ _ hp ih ih' =>
    have := hp.length_eq
    simp only [List.length_append] at this
    omega

theorem AddsUp.error {d : Nat} {l : List Rat} {s : Rat} (h : AddsUp A.fl d l s) :
    |s - l.sum| ≤ ((1 + A.u) ^ d - 1) * (l.map abs).sum := by
  have hu := A.u_nonneg
  have one_le : ∀ n : Nat, 1 ≤ (1 + A.u) ^ n := fun n => one_le_pow₀ (by linarith)
  have sum_nonneg : ∀ l : List Rat, 0 ≤ (l.map abs).sum := by
    intro l
    apply List.sum_nonneg
    intro x hx
    obtain ⟨y, -, rfl⟩ := List.mem_map.1 hx
    exact abs_nonneg y
  have sum_le : ∀ l : List Rat, |l.sum| ≤ (l.map abs).sum := by
    intro l
    induction l with
    | nil => simp
    | cons x l ih => simp only [List.sum_cons, List.map_cons]; exact (abs_add_le _ _).trans (by linarith)
  induction h with
  | one x => simp
  | @add d d' l l' m a b _ _ hp ih ih' =>
    have e1 : m.sum = l.sum + l'.sum := by rw [hp.sum_eq, List.sum_append]
    have e2 : (m.map abs).sum = (l.map abs).sum + (l'.map abs).sum := by rw [(hp.map abs).sum_eq, List.map_append, List.sum_append]
    set S := (l.map abs).sum
    set S' := (l'.map abs).sum
    set D := max d d'
    have hS : 0 ≤ S := sum_nonneg l
    have hS' : 0 ≤ S' := sum_nonneg l'
    have g1 : (1 + A.u) ^ d ≤ (1 + A.u) ^ D := pow_le_pow_right₀ (by linarith) (le_max_left _ _)
    have g2 : (1 + A.u) ^ d' ≤ (1 + A.u) ^ D := pow_le_pow_right₀ (by linarith) (le_max_right _ _)
    set P := (1 + A.u) ^ D
    have i1 : |a - l.sum| ≤ (P - 1) * S := ih.trans (by gcongr)
    have i2 : |b - l'.sum| ≤ (P - 1) * S' := ih'.trans (by gcongr)
    have hab : |(a + b) - (l.sum + l'.sum)| ≤ (P - 1) * (S + S') := by
      rw [show (a + b) - (l.sum + l'.sum) = (a - l.sum) + (b - l'.sum) by ring]
      exact (abs_add_le _ _).trans (by linarith)
    have hs : |l.sum + l'.sum| ≤ S + S' := (abs_add_le _ _).trans (add_le_add (sum_le l) (sum_le l'))
    have hab' : |a + b| ≤ P * (S + S') := by
      have := abs_add_le ((a + b) - (l.sum + l'.sum)) (l.sum + l'.sum)
      rw [sub_add_cancel] at this
      linarith
    rw [e1, e2, pow_succ]
    have hc := A.close (a + b)
    have := abs_add_le (A.fl (a + b) - (a + b)) ((a + b) - (l.sum + l'.sum))
    rw [sub_add_sub_cancel] at this
    have hm : A.u * |a + b| ≤ A.u * (P * (S + S')) := by gcongr
    nlinarith

theorem AddsUp.nonneg {d : Nat} {l : List Rat} {s : Rat} (h : AddsUp A.fl d l s) (hl : ∀ x ∈ l, 0 ≤ x) : 0 ≤ s := by
  induction h with
  | one x => exact hl x (by simp)
  | add _ _ hp ih ih' =>
    exact fl_nonneg A (add_nonneg (ih fun x hx => hl x (hp.mem_iff.2 (by simp [hx]))) (ih' fun x hx => hl x (hp.mem_iff.2 (by simp [hx]))))

theorem AddsUp.nonpos {d : Nat} {l : List Rat} {s : Rat} (h : AddsUp A.fl d l s) (hl : ∀ x ∈ l, x ≤ 0) : s ≤ 0 := by
  induction h with
  | one x => exact hl x (by simp)
  | add _ _ hp ih ih' =>
    exact fl_nonpos A (add_nonpos (ih fun x hx => hl x (hp.mem_iff.2 (by simp [hx]))) (ih' fun x hx => hl x (hp.mem_iff.2 (by simp [hx]))))

/-- A sum of numbers of one sign is zero exactly when they all are. -/
theorem AddsUp.eq_zero {d : Nat} {l : List Rat} {s : Rat} (h : AddsUp A.fl d l s) (hl : (∀ x ∈ l, 0 ≤ x) ∨ ∀ x ∈ l, x ≤ 0) :
    s = 0 ↔ ∀ x ∈ l, x = 0 := by
  induction h with
  | one x => simp
  | @add d d' l l' m a b ha hb hp ih ih' =>
    have m1 : ∀ x ∈ l, x ∈ m := fun x hx => hp.mem_iff.2 (by simp [hx])
    have m2 : ∀ x ∈ l', x ∈ m := fun x hx => hp.mem_iff.2 (by simp [hx])
    have i1 := ih (hl.imp (fun h x hx => h x (m1 x hx)) fun h x hx => h x (m1 x hx))
    have i2 := ih' (hl.imp (fun h x hx => h x (m2 x hx)) fun h x hx => h x (m2 x hx))
    have hab : a + b = 0 ↔ a = 0 ∧ b = 0 := by
      rcases hl with hl | hl
      · have h1 := ha.nonneg fun x hx => hl x (m1 x hx)
        have h2 := hb.nonneg fun x hx => hl x (m2 x hx)
        exact ⟨fun h => ⟨by linarith, by linarith⟩, fun h => by rw [h.1, h.2, add_zero]⟩
      · have h1 := ha.nonpos fun x hx => hl x (m1 x hx)
        have h2 := hb.nonpos fun x hx => hl x (m2 x hx)
        exact ⟨fun h => ⟨by linarith, by linarith⟩, fun h => by rw [h.1, h.2, add_zero]⟩
    rw [fl_eq_zero, hab, i1, i2]
    constructor
    · rintro ⟨h1, h2⟩ x hx
      rcases List.mem_append.1 (hp.mem_iff.1 hx) with hx | hx
      · exact h1 x hx
      · exact h2 x hx
    · exact fun h => ⟨fun x hx => h x (m1 x hx), fun x hx => h x (m2 x hx)⟩

/-- Sums of integers are exact as long as the total of the absolute values is small. -/
theorem AddsUp.integers {N : Int} (hN : ∀ n : Int, |n| ≤ N → A.fl n = n) {d : Nat} {l : List Rat} {s : Rat} (h : AddsUp A.fl d l s)
    (hl : ∀ x ∈ l, ∃ n : Int, x = n) (hs : (l.map abs).sum ≤ N) : s = l.sum ∧ ∃ n : Int, s = n ∧ (|n| : Rat) ≤ (l.map abs).sum := by
  induction h with
  | one x =>
    obtain ⟨n, hn⟩ := hl x (by simp)
    exact ⟨by simp, n, hn, by simp [hn]⟩
  | @add d d' l l' m a b ha hb hp ih ih' =>
    have e2 : (m.map abs).sum = (l.map abs).sum + (l'.map abs).sum := by rw [(hp.map abs).sum_eq, List.map_append, List.sum_append]
    have sum_nonneg : ∀ l : List Rat, 0 ≤ (l.map abs).sum := by
      intro l
      apply List.sum_nonneg
      intro x hx
      obtain ⟨y, -, rfl⟩ := List.mem_map.1 hx
      exact abs_nonneg y
    have n1 := sum_nonneg l
    have n2 := sum_nonneg l'
    obtain ⟨r1, n, rfl, r2⟩ := ih (fun x hx => hl x (hp.mem_iff.2 (by simp [hx]))) (by linarith)
    obtain ⟨r3, k, rfl, r4⟩ := ih' (fun x hx => hl x (hp.mem_iff.2 (by simp [hx]))) (by linarith)
    have hle : (|((n + k : Int) : Rat)|) ≤ (m.map abs).sum := by
      push_cast
      exact (abs_add_le _ _).trans (by rw [e2]; exact add_le_add (by exact_mod_cast r2) (by exact_mod_cast r4))
    have hle' : |n + k| ≤ N := by
      have := hle.trans hs
      exact_mod_cast this
    have hf := hN (n + k) hle'
    push_cast at hf
    rw [hf, hp.sum_eq, List.sum_append, ← r1, ← r3]
    exact ⟨rfl, n + k, by push_cast; rfl, by exact_mod_cast hle⟩

/-- A bound of the growth of errors -/
theorem growth {u : Rat} (hu : 0 ≤ u) {n : Nat} (h : 2 * n * u ≤ 1) : (1 + u) ^ n - 1 ≤ 2 * n * u := by
  induction n with
  | zero => simp
  | succ n ih =>
    push_cast at h ⊢
    have h' : 2 * (n : Rat) * u ≤ 1 := by nlinarith
    have := ih h'
    rw [pow_succ]
    nlinarith

/-! ## Means -/

theorem abs_sum_nonneg (l : List Rat) : 0 ≤ (l.map abs).sum := by
  apply List.sum_nonneg
  intro x hx
  obtain ⟨y, -, rfl⟩ := List.mem_map.1 hx
  exact abs_nonneg y

theorem abs_sum_le (l : List Rat) : |l.sum| ≤ (l.map abs).sum := by
  induction l with
  | nil => simp
  | cons x l ih => simp only [List.sum_cons, List.map_cons]; exact (abs_add_le _ _).trans (by linarith)

theorem one_le_growth (n : Nat) : 1 ≤ (1 + A.u) ^ n := one_le_pow₀ (by linarith [A.u_nonneg])

/-- The error of a rounded sum divided by a number of values -/
theorem ratio_error {d n : Nat} {l : List Rat} {s : Rat} (h : AddsUp A.fl d l s) (hn : 0 < n) :
    |A.fl (s / n) - l.sum / n| ≤ ((1 + A.u) ^ l.length - 1) * ((l.map abs).sum / n) := by
  have hu := A.u_nonneg
  have hn' : (0 : Rat) < n := by exact_mod_cast hn
  have he := h.error
  have hT := abs_sum_nonneg l
  have hle := abs_sum_le l
  set T := (l.map abs).sum
  set P := (1 + A.u) ^ d with hP
  have hs : |s| ≤ P * T := by
    have := abs_add_le (s - l.sum) l.sum
    rw [sub_add_cancel] at this
    linarith
  have h1 : |s / n - l.sum / n| ≤ (P - 1) * (T / n) := by
    rw [← sub_div, abs_div, abs_of_pos hn', ← mul_div_assoc]
    gcongr
  have h2 : |s / n| ≤ P * (T / n) := by
    rw [abs_div, abs_of_pos hn', ← mul_div_assoc]
    gcongr
  have h3 : |A.fl (s / n) - l.sum / n| ≤ (P * (1 + A.u) - 1) * (T / n) := by
    have h4 := A.close (s / n)
    have h5 := abs_add_le (A.fl (s / n) - s / n) (s / n - l.sum / n)
    rw [sub_add_sub_cancel] at h5
    have h6 : A.u * |s / n| ≤ A.u * (P * (T / n)) := by gcongr
    nlinarith
  have h7 : P * (1 + A.u) ≤ (1 + A.u) ^ l.length := by
    rw [hP, ← pow_succ]
    exact pow_le_pow_right₀ (by linarith) h.lt
  refine h3.trans ?_
  have : 0 ≤ T / n := by positivity
  gcongr

theorem mean_error {l : List Rat} (hl : l ≠ []) (hu : 2 * l.length * A.u ≤ 1) :
    |mean A l - meanOf l| ≤ 2 * l.length * A.u * meanOf (l.map abs) := by
  obtain ⟨d, hd⟩ := A.sum_adds l hl
  refine (ratio_error hd (List.length_pos_iff.2 hl)).trans ?_
  simp only [meanOf, List.length_map]
  have h1 := growth A.u_nonneg hu
  have h2 := abs_sum_nonneg l
  gcongr

theorem sum_getD (l : List (Option Rat)) : (l.map fun x => x.getD 0).sum = (present l).sum := by
  induction l with
  | nil => rfl
  | cons x l ih => cases x <;> simp_all [present]

theorem abs_sum_getD (l : List (Option Rat)) : ((l.map fun x => x.getD 0).map abs).sum = ((present l).map abs).sum := by
  induction l with
  | nil => rfl
  | cons x l ih => cases x <;> simp_all [present]

theorem length_isSome (l : List (Option Rat)) : (l.filter fun x => x.isSome).length = (present l).length := by
  induction l with
  | nil => rfl
  | cons x l ih => cases x <;> simp_all [present]

theorem present_ne {l : List (Option Rat)} (h : present l ≠ []) : l ≠ [] := by
  rintro rfl; exact h rfl

theorem nanmean_none {l : List (Option Rat)} (h : present l = []) : nanmean A l = none := by
  simp [nanmean, length_isSome, h]

theorem nanmean_some {l : List (Option Rat)} (h : present l ≠ []) :
    ∃ d s, AddsUp A.fl d (l.map fun x => x.getD 0) s ∧ nanmean A l = some (A.fl (s / (present l).length)) := by
  obtain ⟨d, hd⟩ := A.sum_adds (l.map fun x => x.getD 0) (by simpa using present_ne h)
  refine ⟨d, _, hd, ?_⟩
  have : (present l).length ≠ 0 := by simpa using h
  simp only [nanmean, length_isSome]
  rw [if_neg this]

theorem nanmean_error {l : List (Option Rat)} (h : present l ≠ []) :
    ∃ m, nanmean A l = some m ∧ |m - meanOf (present l)| ≤ ((1 + A.u) ^ l.length - 1) * meanOf ((present l).map abs) := by
  obtain ⟨d, s, hd, e⟩ := nanmean_some (A := A) h
  refine ⟨_, e, ?_⟩
  have := ratio_error hd (List.length_pos_iff.2 h)
  rw [sum_getD, abs_sum_getD, List.length_map] at this
  simpa [meanOf] using this

/-- The error of the mean of numbers which are themselves rounded -/
theorem nanmean_rounded {l : List (Option Rat)} {k : Nat} {ι : Type} {z : List ι} {f g : ι → Rat} (hz : z ≠ [])
    (hp : present l = z.map f) (hg : ∀ i ∈ z, 0 ≤ g i) (hf : ∀ i ∈ z, 0 ≤ f i)
    (hfg : ∀ i ∈ z, |f i - g i| ≤ ((1 + A.u) ^ k - 1) * g i) :
    ∃ m, nanmean A l = some m ∧ |m - meanOf (z.map g)| ≤ ((1 + A.u) ^ (l.length + k) - 1) * meanOf (z.map g) := by
  have hne : present l ≠ [] := by rw [hp]; simpa using hz
  obtain ⟨m, e, hm⟩ := nanmean_error (A := A) hne
  refine ⟨m, e, ?_⟩
  rw [hp] at hm
  have habs : (z.map f).map abs = z.map f := by
    rw [List.map_map]
    exact List.map_congr_left fun i hi => abs_of_nonneg (hf i hi)
  rw [habs] at hm
  have key : |(z.map f).sum - (z.map g).sum| ≤ ((1 + A.u) ^ k - 1) * (z.map g).sum := by
    clear hz hp hm habs
    induction z with
    | nil => simp
    | cons i z ih =>
      have h1 := hfg i (by simp)
      have h2 := ih (fun j hj => hg j (by simp [hj])) (fun j hj => hf j (by simp [hj])) fun j hj => hfg j (by simp [hj])
      simp only [List.map_cons, List.sum_cons]
      rw [show f i + (z.map f).sum - (g i + (z.map g).sum) = (f i - g i) + ((z.map f).sum - (z.map g).sum) by ring]
      exact (abs_add_le _ _).trans (by linarith)
  have hn : (0 : Rat) < z.length := by exact_mod_cast List.length_pos_iff.2 hz
  have hG : 0 ≤ (z.map g).sum := by
    apply List.sum_nonneg
    intro x hx
    obtain ⟨i, hi, rfl⟩ := List.mem_map.1 hx
    exact hg i hi
  simp only [meanOf, List.length_map] at hm ⊢
  have k1 : |(z.map f).sum / z.length - (z.map g).sum / z.length| ≤ ((1 + A.u) ^ k - 1) * ((z.map g).sum / z.length) := by
    rw [← sub_div, abs_div, abs_of_pos hn, ← mul_div_assoc]
    gcongr
  set F := (z.map f).sum / z.length
  set G := (z.map g).sum / z.length with hGd
  have hG' : 0 ≤ G := by positivity
  have hF : F ≤ (1 + A.u) ^ k * G := by linarith [(abs_le.1 k1).2]
  have h1 := one_le_growth (A := A) l.length
  have h2 := abs_add_le (m - F) (F - G)
  rw [sub_add_sub_cancel] at h2
  rw [pow_add]
  nlinarith

theorem square_error (x : Rat) : |A.fl (A.fl x * A.fl x) - x ^ 2| ≤ ((1 + A.u) ^ 3 - 1) * x ^ 2 := by
  have hu := A.u_nonneg
  have h1 := A.close x
  have h2 := abs_fl_le A x
  have h3 : |A.fl x * A.fl x - x ^ 2| ≤ A.u * (2 + A.u) * x ^ 2 := by
    rw [show A.fl x * A.fl x - x ^ 2 = (A.fl x - x) * (A.fl x + x) by ring, abs_mul]
    have h4 : |A.fl x + x| ≤ (2 + A.u) * |x| := (abs_add_le _ _).trans (by linarith)
    calc _ ≤ (A.u * |x|) * ((2 + A.u) * |x|) := by gcongr
      _ = A.u * (2 + A.u) * |x| ^ 2 := by ring
      _ = _ := by rw [sq_abs]
  have h5 := A.close (A.fl x * A.fl x)
  have h6 : |A.fl x * A.fl x| ≤ (1 + A.u) ^ 2 * x ^ 2 := by
    rw [abs_mul]
    calc _ ≤ ((1 + A.u) * |x|) * ((1 + A.u) * |x|) := by gcongr
      _ = (1 + A.u) ^ 2 * |x| ^ 2 := by ring
      _ = _ := by rw [sq_abs]
  have h7 := abs_add_le (A.fl (A.fl x * A.fl x) - A.fl x * A.fl x) (A.fl x * A.fl x - x ^ 2)
  rw [sub_add_sub_cancel] at h7
  have h8 : A.u * |A.fl x * A.fl x| ≤ A.u * ((1 + A.u) ^ 2 * x ^ 2) := by gcongr
  nlinarith [sq_nonneg x]

theorem abs_error (x : Rat) : abs (|A.fl x| - |x|) ≤ ((1 + A.u) ^ 1 - 1) * |x| := by
  rw [pow_one, add_sub_cancel_left]
  exact (abs_abs_sub_abs_le _ _).trans (A.close x)

/-- The errors which are not missing -/
theorem errors_present {pred y : List (Option Rat)} (h : pred.length = y.length) :
    ∃ e, errors A pred y = .ok e ∧ e.length = pred.length ∧ present e = (both pred y).map fun x => A.fl (x.1 - x.2) := by
  refine ⟨_, by rw [errors, if_neg (by simpa using h)], by simp [h], ?_⟩
  clear h
  induction pred generalizing y with
  | nil => simp [present, both]
  | cons p pred ih =>
    cases y with
    | nil => simp [present, both]
    | cons t y =>
      have := @ih y
      simp only [present, both] at this ⊢
      cases p <;> cases t <;> simpa using this

theorem present_map (l : List (Option Rat)) (f : Rat → Rat) : present (l.map fun x => x.map f) = (present l).map f := by
  induction l with
  | nil => rfl
  | cons x l ih => cases x <;> simp_all [present]

/-- The mean of numbers which are not negative is zero exactly when they all are. -/
theorem nanmean_zero {l : List (Option Rat)} (hne : present l ≠ []) (hl : ∀ x ∈ present l, 0 ≤ x) :
    ∃ m, nanmean A l = some m ∧ 0 ≤ m ∧ (m = 0 ↔ ∀ x ∈ present l, x = 0) := by
  obtain ⟨d, s, hd, e⟩ := nanmean_some (A := A) hne
  have hn : (0 : Rat) < (present l).length := by exact_mod_cast List.length_pos_iff.2 hne
  have h0 : ∀ x ∈ l.map (fun x => x.getD 0), 0 ≤ x := by
    intro x hx
    obtain ⟨o, ho, rfl⟩ := List.mem_map.1 hx
    cases o with
    | none => exact le_refl _
    | some x => exact hl x (List.mem_filterMap.2 ⟨_, ho, rfl⟩)
  refine ⟨_, e, fl_nonneg A (div_nonneg (hd.nonneg h0) hn.le), ?_⟩
  rw [fl_eq_zero, div_eq_zero_iff, or_iff_left hn.ne', hd.eq_zero (.inl h0)]
  constructor
  · intro h x hx
    obtain ⟨o, ho, e⟩ := List.mem_filterMap.1 hx
    simp only [id] at e
    subst e
    exact h x (List.mem_map.2 ⟨_, ho, rfl⟩)
  · intro h x hx
    obtain ⟨o, ho, rfl⟩ := List.mem_map.1 hx
    cases o with
    | none => rfl
    | some x => exact h x (List.mem_filterMap.2 ⟨_, ho, rfl⟩)

theorem conditionalMean_arr {u : List Bool} {y : List (Option Rat)} (h : y.length = u.length) (hne : present (activated u y) ≠ []) :
    conditionalMean A (arr u) y = .ok (some (mean A (present (activated u y)))) := by
  have : (present (activated u y)).length ≠ 0 := by simpa using hne
  simp only [conditionalMean, extract_arr h, bind, Except.bind]
  exact if_neg this

/-! ## Counts -/

theorem ratio_bounds {k n : Nat} (h : k ≤ n) : 0 ≤ A.fl ((k : Rat) / n) ∧ A.fl ((k : Rat) / n) ≤ 1 := by
  have hk : (k : Rat) ≤ n := by exact_mod_cast h
  constructor
  · exact fl_nonneg A (by positivity)
  · rw [← A.one]
    exact A.mono _ _ (div_le_one_of_le₀ hk (by positivity))

theorem ratio_zero {k n : Nat} (hn : 0 < n) : A.fl ((k : Rat) / n) = 0 ↔ k = 0 := by
  have : (n : Rat) ≠ 0 := by exact_mod_cast hn.ne'
  rw [fl_eq_zero, div_eq_zero_iff, or_iff_left this]
  simp

/-- Rounded quotients of counts compare as the quotients do. -/
theorem ratio_lt {k n a b : Nat} (hn : 0 < n) (hb : 0 < b) (hu : 2 * ((a : Rat) * n) * A.u ≤ 1) :
    A.fl ((k : Rat) / n) < A.fl ((a : Rat) / b) ↔ k * b < a * n := by
  have hn' : (0 : Rat) < n := by exact_mod_cast hn
  have hb' : (0 : Rat) < b := by exact_mod_cast hb
  constructor
  · intro h
    by_contra hc
    refine absurd h (not_lt.2 (A.mono _ _ ?_))
    rw [div_le_div_iff₀ hb' hn']
    exact_mod_cast not_lt.1 hc
  · intro h
    have h1 : (k : Rat) * b + 1 ≤ a * n := by exact_mod_cast h
    have hk : (0 : Rat) ≤ k / n := by positivity
    have ha : (0 : Rat) ≤ a / b := by positivity
    refine lt_of_le_of_lt (fl_le A hk) (lt_of_lt_of_le ?_ (le_fl A ha))
    rw [div_mul_eq_mul_div, div_mul_eq_mul_div, div_lt_div_iff₀ hn' hb']
    have hu0 := A.u_nonneg
    rcases hu0.lt_or_eq with hu1 | hu1
    · nlinarith
    · rw [← hu1]
      linarith

/-- The same for one denominator -/
theorem ratio_same {k k' n : Nat} (hn : 0 < n) (hk : k' ≤ n) (hu : 2 * (n : Rat) * A.u ≤ 1) :
    A.fl ((k : Rat) / n) < A.fl ((k' : Rat) / n) ↔ k < k' := by
  have hn' : (0 : Rat) < n := by exact_mod_cast hn
  constructor
  · intro h
    by_contra hc
    refine absurd h (not_lt.2 (A.mono _ _ ?_))
    have : (k' : Rat) ≤ k := by exact_mod_cast not_lt.1 hc
    gcongr
  · intro h
    have h1 : (k : Rat) + 1 ≤ k' := by exact_mod_cast h
    have h2 : (k' : Rat) ≤ n := by exact_mod_cast hk
    have hk : (0 : Rat) ≤ k / n := by positivity
    have ha : (0 : Rat) ≤ k' / n := by positivity
    refine lt_of_le_of_lt (fl_le A hk) (lt_of_lt_of_le ?_ (le_fl A ha))
    rw [div_mul_eq_mul_div, div_mul_eq_mul_div]
    refine div_lt_div_of_pos_right ?_ hn'
    have hu0 := A.u_nonneg
    rcases hu0.lt_or_eq with hu1 | hu1
    · nlinarith
    · rw [← hu1]
      linarith

theorem ratio_eq {k k' n : Nat} (hn : 0 < n) (hk : k ≤ n) (hk' : k' ≤ n) (hu : 2 * (n : Rat) * A.u ≤ 1) :
    A.fl ((k : Rat) / n) = A.fl ((k' : Rat) / n) ↔ k = k' := by
  constructor
  · intro h
    rcases lt_trichotomy k k' with hc | hc | hc
    · exact absurd h ((ratio_same hn hk' hu).2 hc).ne
    · exact hc
    · exact absurd h.symm ((ratio_same hn hk hu).2 hc).ne
  · rintro rfl; rfl

theorem ratio_one {k n : Nat} (hk : k ≤ n) (hn : 0 < n) (hu : n * A.u ≤ 1) : A.fl ((k : Rat) / n) = 1 ↔ k = n := by
  have hn' : (0 : Rat) < n := by exact_mod_cast hn
  constructor
  · intro h
    by_contra hc
    have h1 : (k : Rat) + 1 ≤ n := by exact_mod_cast (lt_of_le_of_ne hk hc)
    have h2 := fl_le A (x := (k : Rat) / n) (by positivity)
    rw [h, div_mul_eq_mul_div, le_div_iff₀ hn'] at h2
    have := A.u_nonneg
    nlinarith [A.u_lt_one]
  · rintro rfl
    rw [div_self hn'.ne', A.one]

theorem coverage_arr (u : List Bool) : coverage A (arr u) = A.fl ((u.count true : Rat) / u.length) := by
  have : ((arr u).filter fun a => a ≠ 0).length = u.count true := by
    induction u with
    | nil => rfl
    | cons b u ih => cases b <;> simp_all [arr]
  simp only [coverage, this]
  simp [arr]

/-! ## Classes -/

theorem classProbabilities_map (act : List Nat) (y : List Label) :
    classProbabilities A act y = (RFun.classProbabilities act y).map fun p => p.map fun a => (a.1, A.fl a.2) := by
  simp only [classProbabilities, RFun.classProbabilities, bind, Except.bind]
  cases extract act y with
  | error e => rfl
  | ok yc =>
    simp only [List.length_map]
    split
    · rfl
    · simp only [Except.map]
      rw [List.map_insertionSort (r := fun a b : Label × Rat => labelLe a.1 b.1 = true) (s := fun a b : Label × Rat => labelLe a.1 b.1 = true)]
      · simp [List.map_map, Function.comp_def]
      · intros; rfl

theorem bestClass_map {S S' : FloatStr} {p : List (Label × Rat)} {g : Label × Rat → Label × Rat} (h1 : ∀ a, (g a).1 = a.1)
    (h2 : ∀ a ∈ p, ∀ b ∈ p, probaLt S (g a) (g b) = probaLt S' a b) : bestClass S (p.map g) = bestClass S' p := by
  cases p with
  | nil => rfl
  | cons x p =>
    have key : ∀ (l : List (Label × Rat)) (b : Label × Rat), (∀ a ∈ b :: l, a ∈ x :: p) →
        (l.map g).foldl (fun best q => if probaLt S best q then q else best) (g b) =
          g (l.foldl (fun best q => if probaLt S' best q then q else best) b) := by
      intro l
      induction l with
      | nil => intro b _; rfl
      | cons q l ih =>
        intro b hm
        simp only [List.map_cons, List.foldl_cons]
        rw [h2 b (hm b (by simp)) q (hm q (by simp))]
        by_cases hc : probaLt S' b q = true
        · rw [if_pos hc, if_pos hc]
          exact ih q fun a ha => hm a (by simp only [List.mem_cons] at ha ⊢; tauto)
        · rw [if_neg hc, if_neg hc]
          exact ih b fun a ha => hm a (by simp only [List.mem_cons] at ha ⊢; tauto)
    simp only [List.map_cons, bestClass, key p x (fun a ha => ha), h1]

theorem sum_frequencies_error {p : List (Label × Rat)} (h : ∀ x ∈ p, 0 ≤ x.2) :
    |((p.map fun a => (a.1, A.fl a.2)).map (·.2)).sum - (p.map (·.2)).sum| ≤ A.u * (p.map (·.2)).sum := by
  induction p with
  | nil => simp
  | cons x p ih =>
    have h1 := A.close x.2
    rw [abs_of_nonneg (h x (by simp))] at h1
    have h2 := ih fun y hy => h y (by simp [hy])
    simp only [List.map_cons, List.sum_cons]
    set a := ((p.map fun a => (a.1, A.fl a.2)).map (·.2)).sum
    set b := (p.map (·.2)).sum
    rw [show A.fl x.2 + a - (x.2 + b) = (A.fl x.2 - x.2) + (a - b) by ring]
    exact (abs_add_le _ _).trans (by linarith)

theorem mean_bounds {l : List Rat} {a b : Rat} (hl : l ≠ []) (h : ∀ x ∈ l, a ≤ x ∧ x ≤ b) : a ≤ meanOf l ∧ meanOf l ≤ b := by
  have hn : (0 : Rat) < l.length := by exact_mod_cast List.length_pos_iff.2 hl
  have key : ∀ l : List Rat, (∀ x ∈ l, a ≤ x ∧ x ≤ b) → a * l.length ≤ l.sum ∧ l.sum ≤ b * l.length := by
    intro l
    induction l with
    | nil => simp
    | cons x l ih =>
      intro h
      have h1 := h x (by simp)
      have h2 := ih fun y hy => h y (by simp [hy])
      simp only [List.sum_cons, List.length_cons]
      push_cast
      constructor <;> linarith [h1.1, h1.2, h2.1, h2.2]
  have := key l h
  exact ⟨(le_div_iff₀ hn).2 this.1, (div_le_iff₀ hn).2 this.2⟩

theorem mean_integers {N : Int} (hN : ∀ n : Int, |n| ≤ N → A.fl n = n) {l : List Rat} (hl : l ≠ [])
    (hi : ∀ x ∈ l, ∃ n : Int, x = n) (hs : (l.map abs).sum ≤ N) : mean A l = A.fl (meanOf l) := by
  obtain ⟨d, hd⟩ := A.sum_adds l hl
  rw [mean, (hd.integers hN hi hs).1, meanOf]

theorem le_abs_sum {l : List Rat} {x : Rat} (h : x ∈ l) : |x| ≤ (l.map abs).sum := by
  induction l with
  | nil => simp at h
  | cons y l ih =>
    simp only [List.map_cons, List.sum_cons]
    have := abs_sum_nonneg l
    rcases List.mem_cons.1 h with rfl | h
    · linarith
    · have := ih h
      linarith [abs_nonneg y]

theorem sum_close {ι : Type} {z : List ι} {f g : ι → Rat} {c : Rat} (h : ∀ i ∈ z, |f i - g i| ≤ c) :
    |(z.map f).sum - (z.map g).sum| ≤ z.length * c := by
  induction z with
  | nil => simp
  | cons i z ih =>
    have h1 := h i (by simp)
    have h2 := ih fun j hj => h j (by simp [hj])
    simp only [List.map_cons, List.sum_cons, List.length_cons]
    push_cast
    rw [show f i + (z.map f).sum - (g i + (z.map g).sum) = (f i - g i) + ((z.map f).sum - (z.map g).sum) by ring]
    exact (abs_add_le _ _).trans (by linarith)

/-- The error of one squared deviation from the mean -/
theorem deviation_error {a x m m' w : Rat} (hx : |x| ≤ a) (hm : |m| ≤ a) (hw : A.u ≤ w) (hw' : 100 * w ≤ 1)
    (hmm : |m' - m| ≤ 2 * w * a) :
    |A.fl (A.fl (x - m') * A.fl (x - m')) - (x - m) ^ 2| ≤ 21 * w * a ^ 2 ∧ |A.fl (A.fl (x - m') * A.fl (x - m'))| ≤ 43 / 10 * a ^ 2 := by
  have hu := A.u_nonneg
  have ha : 0 ≤ a := (abs_nonneg x).trans hx
  have hw0 : 0 ≤ w := hu.trans hw
  have hwa : w * a ≤ a / 100 := by nlinarith
  have hd : |x - m| ≤ 2 * a := (abs_sub _ _).trans (by linarith)
  have hxm : |x - m'| ≤ 2 * a + 2 * w * a := by
    have := abs_add_le (x - m) (m - m')
    rw [sub_add_sub_cancel, abs_sub_comm m m'] at this
    linarith
  set e := A.fl (x - m') with he
  have h1 : |e - (x - m)| ≤ 2 * w * a + w * (2 * a + 2 * w * a) := by
    have h2 := A.close (x - m')
    have h3 := abs_add_le (e - (x - m')) (m - m')
    rw [show e - (x - m') + (m - m') = e - (x - m) by ring, abs_sub_comm m m'] at h3
    have h4 : A.u * |x - m'| ≤ w * (2 * a + 2 * w * a) := by gcongr
    linarith
  have h1' : |e - (x - m)| ≤ 402 / 100 * (w * a) := by nlinarith
  have h5 : |e + (x - m)| ≤ 4 * a + 402 / 100 * (w * a) := by
    have := abs_add_le (e - (x - m)) (2 * (x - m))
    rw [show e - (x - m) + 2 * (x - m) = e + (x - m) by ring, abs_mul, abs_two] at this
    linarith
  have h5' : |e + (x - m)| ≤ 405 / 100 * a := by linarith
  have h6 : |e * e - (x - m) ^ 2| ≤ 402 / 100 * (w * a) * (405 / 100 * a) := by
    rw [show e * e - (x - m) ^ 2 = (e - (x - m)) * (e + (x - m)) by ring, abs_mul]
    gcongr
  have h7 : |e| ≤ 205 / 100 * a := by
    have := abs_add_le (e - (x - m)) (x - m)
    rw [sub_add_cancel] at this
    linarith
  have h8 : |e * e| ≤ (205 / 100 * a) * (205 / 100 * a) := by
    rw [abs_mul]; gcongr
  have h9 := A.close (e * e)
  have h10 : A.u * |e * e| ≤ w * ((205 / 100 * a) * (205 / 100 * a)) := by gcongr
  have h11 := abs_add_le (A.fl (e * e) - e * e) (e * e - (x - m) ^ 2)
  rw [sub_add_sub_cancel] at h11
  have haa : 0 ≤ a * a := mul_self_nonneg a
  have hwaa : 0 ≤ w * (a * a) := by positivity
  constructor
  · nlinarith
  · have h12 := abs_add_le (A.fl (e * e) - e * e) (e * e)
    rw [sub_add_cancel] at h12
    nlinarith

theorem variance_error {l : List Rat} {a : Rat} (h2 : 2 ≤ l.length) (ha : ∀ x ∈ l, |x| ≤ a) (hu : 100 * (l.length : Rat) * A.u ≤ 1) :
    |A.fl (A.sum (l.map fun x => A.fl (A.fl (x - mean A l) * A.fl (x - mean A l))) / ((l.length : Rat) - 1)) - varianceOf l| ≤
      60 * l.length * A.u * a ^ 2 := by
  have hu0 := A.u_nonneg
  have hne : l ≠ [] := by rintro rfl; simp at h2
  have hn2 : (2 : Rat) ≤ l.length := by exact_mod_cast h2
  set n : Rat := ((l.length : Nat) : Rat) with hn
  set w := n * A.u with hw
  have hnu : 2 * (l.length : Rat) * A.u ≤ 1 := by
    rw [← hn]
    nlinarith [mul_nonneg (by linarith : 0 ≤ n) hu0]
  have hw0 : 0 ≤ w := by positivity
  have huw : A.u ≤ w := by nlinarith
  have hw1 : 100 * w ≤ 1 := by rw [hw]; linarith
  obtain ⟨x0, hx0⟩ := List.exists_mem_of_ne_nil _ hne
  have ha0 : 0 ≤ a := (abs_nonneg x0).trans (ha x0 hx0)
  have hm : |meanOf l| ≤ a := by
    have := mean_bounds hne (a := -a) (b := a) fun x hx => abs_le.1 (ha x hx)
    exact abs_le.2 this
  have hma : meanOf (l.map abs) ≤ a := by
    refine (mean_bounds (a := 0) (by simpa using hne) ?_).2
    rw [List.forall_mem_map]
    exact fun x hx => ⟨abs_nonneg x, ha x hx⟩
  have hmm : |mean A l - meanOf l| ≤ 2 * w * a := by
    refine (mean_error hne hnu).trans ?_
    rw [← hn, show 2 * n * A.u = 2 * w by rw [hw]; ring]
    gcongr
  have hdev := fun x hx => deviation_error (A := A) (x := x) (ha x hx) hm huw hw1 hmm
  set q := l.map fun x => A.fl (A.fl (x - mean A l) * A.fl (x - mean A l)) with hq
  have hlen : q.length = l.length := by simp [hq]
  obtain ⟨d, hd⟩ := A.sum_adds q (by simpa [hq] using hne)
  have hcast : ((l.length - 1 : Nat) : Rat) = n - 1 := by rw [Nat.cast_sub (by omega)]; simp [hn]
  have r1 := ratio_error hd (n := l.length - 1) (by omega)
  rw [hcast, hlen] at r1
  have r2 : (1 + A.u) ^ l.length - 1 ≤ 2 * w := by
    have := growth hu0 hnu
    rw [← hn, show 2 * n * A.u = 2 * w by rw [hw]; ring] at this
    exact this
  have hn1 : 0 < n - 1 := by linarith
  have hinv : n / (n - 1) ≤ 2 := by rw [div_le_iff₀ hn1]; linarith
  have r3 : (q.map abs).sum ≤ n * (43 / 10 * a ^ 2) := by
    have hb : ∀ x ∈ q.map abs, x ≤ 43 / 10 * a ^ 2 := by
      rw [List.forall_mem_map, hq, List.forall_mem_map]
      exact fun x hx => (hdev x hx).2
    have := List.sum_le_card_nsmul _ _ hb
    rw [List.length_map, hlen, nsmul_eq_mul, ← hn] at this
    exact this
  have r4 : (q.map abs).sum / (n - 1) ≤ 2 * (43 / 10 * a ^ 2) := by
    calc _ ≤ n * (43 / 10 * a ^ 2) / (n - 1) := by gcongr
      _ = n / (n - 1) * (43 / 10 * a ^ 2) := by ring
      _ ≤ _ := by gcongr
  have s1 := sum_close (z := l) (f := fun x => A.fl (A.fl (x - mean A l) * A.fl (x - mean A l))) (g := fun x => (x - meanOf l) ^ 2)
    fun x hx => (hdev x hx).1
  rw [← hq, ← hn] at s1
  have s2 : |q.sum / (n - 1) - varianceOf l| ≤ 2 * (21 * w * a ^ 2) := by
    rw [varianceOf, ← hn, ← sub_div, abs_div, abs_of_pos hn1]
    calc _ ≤ n * (21 * w * a ^ 2) / (n - 1) := by gcongr
      _ = n / (n - 1) * (21 * w * a ^ 2) := by ring
      _ ≤ _ := by gcongr
  have r5 : ((1 + A.u) ^ l.length - 1) * ((q.map abs).sum / (n - 1)) ≤ 2 * w * (2 * (43 / 10 * a ^ 2)) := by
    have := abs_sum_nonneg q
    gcongr
  have t := abs_add_le (A.fl (A.sum q / (n - 1)) - q.sum / (n - 1)) (q.sum / (n - 1) - varianceOf l)
  rw [sub_add_sub_cancel] at t
  have hfin : 60 * n * A.u * a ^ 2 = 60 * (w * a ^ 2) := by rw [hw]; ring
  rw [hfin]
  have : 0 ≤ w * a ^ 2 := by positivity
  nlinarith

end

end Verif.Rounded
