import Verif.BoundTextSpec
import Verif.ConditionLemmas
import Mathlib.Data.Rat.Floor
import Mathlib.Tactic.Linarith

/-!
# Lemmas: bounds written as texts
-/

namespace Verif.Cond

open Verif Spec

theorem cutOff_trunc (q : Rat) : CutOff q (Num.trunc q) := by
  have hd : (0 : Int) < q.den := by exact_mod_cast q.den_pos
  have hdq : (0 : Rat) < q.den := by exact_mod_cast q.den_pos
  have hq : q * q.den = q.num := Rat.mul_den_eq_num q
  have e := Int.mul_tdiv_add_tmod q.num q.den
  unfold Num.trunc
  generalize hz : q.num.tdiv q.den = z at e
  have eq : (q.num : Rat) = (q.den : Rat) * z + (q.num.tmod q.den : Int) := by exact_mod_cast e.symm
  constructor
  · intro h
    have h0 : 0 ≤ q.num := Rat.num_nonneg.2 h
    have a : 0 ≤ q.num.tmod q.den := Int.tmod_nonneg _ h0
    have b : q.num.tmod q.den < q.den := Int.tmod_lt_of_pos _ hd
    have a' : (0 : Rat) ≤ (q.num.tmod q.den : Int) := by exact_mod_cast a
    have b' : ((q.num.tmod q.den : Int) : Rat) < q.den := by exact_mod_cast b
    constructor
    · by_contra hc
      have := mul_lt_mul_of_pos_right (not_le.1 hc) hdq
      nlinarith
    · by_contra hc
      have := mul_le_mul_of_nonneg_right (not_lt.1 hc) hdq.le
      nlinarith
  · intro h
    have h0 : q.num < 0 := Rat.num_neg.2 h
    have a : q.num.tmod q.den ≤ 0 := by
      have := Int.tmod_nonneg (a := -q.num) q.den (by omega)
      rw [Int.neg_tmod] at this
      omega
    have b : -(q.den : Int) < q.num.tmod q.den := by
      have := Int.tmod_lt_of_pos (-q.num) hd
      rw [Int.neg_tmod] at this
      omega
    have a' : ((q.num.tmod q.den : Int) : Rat) ≤ 0 := by exact_mod_cast a
    have b' : -(q.den : Rat) < (q.num.tmod q.den : Int) := by exact_mod_cast b
    constructor
    · by_contra hc
      have := mul_lt_mul_of_pos_right (not_le.1 hc) hdq
      nlinarith
    · by_contra hc
      have := mul_le_mul_of_nonneg_right (not_lt.1 hc) hdq.le
      nlinarith

theorem cutOff_unique {q : Rat} {z w : Int} (h : CutOff q z) (k : CutOff q w) : z = w := by
  rcases le_or_gt 0 q with h0 | h0
  · obtain ⟨a, b⟩ := h.1 h0
    obtain ⟨c, d⟩ := k.1 h0
    have e : (z : Rat) < w + 1 := lt_of_le_of_lt a d
    have f : (w : Rat) < z + 1 := lt_of_le_of_lt c b
    have e' : z < w + 1 := by exact_mod_cast e
    have f' : w < z + 1 := by exact_mod_cast f
    omega
  · obtain ⟨a, b⟩ := h.2 h0
    obtain ⟨c, d⟩ := k.2 h0
    have e : (z : Rat) - 1 < w := lt_of_lt_of_le b c
    have f : (w : Rat) - 1 < z := lt_of_lt_of_le d a
    have e' : z - 1 < w := by exact_mod_cast e
    have f' : w - 1 < z := by exact_mod_cast f
    omega

theorem cutOff_int (z : Int) : CutOff z z := by
  constructor <;> intro h <;> constructor <;> linarith

theorem trunc_int (z : Int) : Num.trunc z = z := cutOff_unique (cutOff_trunc _) (cutOff_int z)

theorem mapM_toInt (qs : List Rat) :
    (qs.map Num.fin).mapM toInt = .ok (qs.map fun q => Num.fin (Num.trunc q : Int)) := by
  induction qs with
  | nil => rfl
  | cons q t ih =>
    rw [List.map_cons, List.mapM_cons, ih]
    rfl

theorem bounds_text (qs : List Rat) :
    Arg.bounds (.text (.ok (qs.map Num.fin))) = Arg.bounds (.list (qs.map fun q => Num.fin (Num.trunc q : Int))) :=
  mapM_toInt qs

theorem setBmins_congr {a b : Arg Num} (h : a.bounds = b.bounds) (c : Cond) : setBmins a c = setBmins b c := by
  unfold setBmins
  rw [h]

theorem setBmaxs_congr {a b : Arg Num} (h : a.bounds = b.bounds) (c : Cond) : setBmaxs a c = setBmaxs b c := by
  unfold setBmaxs
  rw [h]

/-- What comes before an infinite number does not matter. -/
theorem mapM_toInt_infinite {qs : List Rat} {v : Num} {t : List Num} (h : v = .inf ∨ v = .ninf) :
    (qs.map Num.fin ++ v :: t).mapM toInt = .error .overflowError := by
  induction qs with
  | nil => rcases h with rfl | rfl <;> rfl
  | cons q s ih =>
    rw [List.map_cons, List.cons_append, List.mapM_cons, ih]
    rfl

theorem mapM_toInt_nan {qs : List Rat} {t : List Num} : (qs.map Num.fin ++ .nan :: t).mapM toInt = .error .valueError := by
  induction qs with
  | nil => rfl
  | cons q s ih =>
    rw [List.map_cons, List.cons_append, List.mapM_cons, ih]
    rfl

theorem put_lo {fs : List Feature} {qs : List Rat} (hl : qs.length = fs.length) :
    fs.map (·.name) = (List.zipWith (fun f (z : Int) => { f with lo := .fin z }) fs (qs.map Num.trunc)).map (·.name) ∧
    fs.map (·.index) = (List.zipWith (fun f (z : Int) => { f with lo := .fin z }) fs (qs.map Num.trunc)).map (·.index) ∧
    qs.map (fun q => Num.fin (Num.trunc q : Int)) = (List.zipWith (fun f (z : Int) => { f with lo := .fin z }) fs (qs.map Num.trunc)).map (·.lo) ∧
    fs.map (·.hi) = (List.zipWith (fun f (z : Int) => { f with lo := .fin z }) fs (qs.map Num.trunc)).map (·.hi) := by
  refine ⟨?_, ?_, ?_, ?_⟩
  all_goals
    induction fs generalizing qs with
    | nil => cases qs with
      | nil => rfl
      | cons q t => simp at hl
    | cons f t ih => cases qs with
      | nil => simp at hl
      | cons q s => simpa using ih (by simpa using hl)

theorem put_hi {fs : List Feature} {qs : List Rat} (hl : qs.length = fs.length) :
    fs.map (·.name) = (List.zipWith (fun f (z : Int) => { f with hi := .fin z }) fs (qs.map Num.trunc)).map (·.name) ∧
    fs.map (·.index) = (List.zipWith (fun f (z : Int) => { f with hi := .fin z }) fs (qs.map Num.trunc)).map (·.index) ∧
    fs.map (·.lo) = (List.zipWith (fun f (z : Int) => { f with hi := .fin z }) fs (qs.map Num.trunc)).map (·.lo) ∧
    qs.map (fun q => Num.fin (Num.trunc q : Int)) = (List.zipWith (fun f (z : Int) => { f with hi := .fin z }) fs (qs.map Num.trunc)).map (·.hi) := by
  refine ⟨?_, ?_, ?_, ?_⟩
  all_goals
    induction fs generalizing qs with
    | nil => cases qs with
      | nil => rfl
      | cons q t => simp at hl
    | cons f t ih => cases qs with
      | nil => simp at hl
      | cons q s => simpa using ih (by simpa using hl)

end Verif.Cond
