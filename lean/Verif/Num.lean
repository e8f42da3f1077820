import Mathlib.Algebra.Order.Field.Rat
import Mathlib.Tactic.Linarith

/-!
# Numbers

Python/numpy real numbers: exact rationals extended with NaN and the two infinities.  Simplification:
rounding of floats is not modelled, and the difference between the int `1` and the float `1.0` (visible only by
`type` and `str`) is not kept.
-/

namespace Verif

/-- A Python `int` or `float`, seen as a number. -/
inductive Num where
  | nan
  | ninf
  | fin (q : Rat)
  | inf
  deriving DecidableEq, Repr, Inhabited

namespace Num

/-- `a <= b` (IEEE 754: false as soon as one side is NaN) -/
def le : Num → Num → Bool
  | nan, _ => false
  | _, nan => false
  | ninf, _ => true
  | _, inf => true
  | fin a, fin b => decide (a ≤ b)
  | _, _ => false

/-- `a < b` -/
def lt (a b : Num) : Bool := le a b && !le b a

/-- `max(a, b)` of Python: the second argument only if it is greater than the first. -/
def max (a b : Num) : Num := if lt a b then b else a

/-- `min(a, b)` of Python: the second argument only if it is smaller than the first. -/
def min (a b : Num) : Num := if lt b a then b else a

/-- `np.isfinite` -/
def isFinite : Num → Bool
  | fin _ => true
  | _ => false

/-- `int(x)` for finite `x`: truncation towards zero. -/
def trunc (q : Rat) : Int := q.num.tdiv q.den

/-- `a == b` (false as soon as one side is NaN) -/
def beq (a b : Num) : Bool := le a b && le b a

/-- `np.isnan` -/
def isNaN : Num → Bool
  | nan => true
  | _ => false

/-- `-a` -/
def neg : Num → Num
  | nan => nan
  | ninf => inf
  | inf => ninf
  | fin a => fin (-a)

/-- `abs(a)` -/
def abs : Num → Num
  | nan => nan
  | ninf => inf
  | inf => inf
  | fin a => fin |a|

/-- `a + b` -/
def add : Num → Num → Num
  | nan, _ => nan
  | _, nan => nan
  | inf, ninf => nan
  | ninf, inf => nan
  | inf, _ => inf
  | _, inf => inf
  | ninf, _ => ninf
  | _, ninf => ninf
  | fin a, fin b => fin (a + b)

/-- `a - b` -/
def sub (a b : Num) : Num := add a (neg b)

/-- An infinity with the sign of `a`; NaN for zero. -/
def infSign (a : Rat) : Num := if a = 0 then nan else if a < 0 then ninf else inf

/-- `a * b` -/
def mul : Num → Num → Num
  | nan, _ => nan
  | _, nan => nan
  | inf, inf => inf
  | inf, ninf => ninf
  | ninf, inf => ninf
  | ninf, ninf => inf
  | inf, fin b => infSign b
  | ninf, fin b => infSign (-b)
  | fin a, inf => infSign a
  | fin a, ninf => infSign (-a)
  | fin a, fin b => fin (a * b)

/-- `a / b` of numpy floats.  Simplification: there is only one zero, taken as positive. -/
def div : Num → Num → Num
  | nan, _ => nan
  | _, nan => nan
  | fin a, fin b => if b = 0 then infSign a else fin (a / b)
  | fin _, _ => fin 0
  | inf, fin b => if b < 0 then ninf else inf
  | ninf, fin b => if b < 0 then inf else ninf
  | _, _ => nan

/-- `np.sum` -/
def sum (l : List Num) : Num := l.foldl add (fin 0)

/-- `np.mean`: NaN of an empty array -/
def mean (l : List Num) : Num := div (sum l) (fin l.length)

/-- What is not NaN -/
def dropna (l : List Num) : List Num := l.filter fun x => !x.isNaN

/-- `np.nanmean`, and `.mean()` of pandas -/
def nanmean (l : List Num) : Num := mean (dropna l)

/-- A number or a missing value -/
def ofOption : Option Rat → Num
  | none => nan
  | some q => fin q

theorem le_refl_of {a : Num} (h : a ≠ nan) : le a a = true := by
  cases a <;> simp_all [le]

theorem le_total_of {a b : Num} (ha : a ≠ nan) (hb : b ≠ nan) : le a b = true ∨ le b a = true := by
  cases a <;> cases b <;> simp_all [le]
  exact _root_.le_total _ _

theorem le_trans' {a b c : Num} (h1 : le a b = true) (h2 : le b c = true) : le a c = true := by
  cases a <;> cases b <;> cases c <;> simp_all [le]
  exact h1.trans h2

theorem le_not_nan {a b : Num} (h : le a b = true) : a ≠ nan ∧ b ≠ nan := by
  cases a <;> cases b <;> simp_all [le]

theorem not_le_iff_lt {a b : Num} (ha : a ≠ nan) (hb : b ≠ nan) : (le a b = false) ↔ lt b a = true := by
  have := le_total_of ha hb
  unfold lt
  cases h1 : le a b <;> cases h2 : le b a <;> simp_all

/-- Being at least the greater of two numbers. -/
theorem max_le {a b x : Num} (ha : a ≠ nan) (hb : b ≠ nan) :
    le (max a b) x = (le a x && le b x) := by
  unfold max
  by_cases h : lt a b = true
  · simp only [h, if_true]
    have hab : le a b = true := by simp [lt] at h; exact h.1
    cases hx : le b x
    · simp
    · simp [le_trans' hab hx]
  · simp only [h, if_false, Bool.false_eq_true]
    have hba : le b a = true := by
      rcases le_total_of ha hb with h1 | h1
      · cases h2 : le b a
        · exact absurd ((not_le_iff_lt hb ha).1 h2) h
        · rfl
      · exact h1
    cases hx : le a x
    · simp
    · simp [le_trans' hba hx]

/-- Being at most the smaller of two numbers. -/
theorem le_min {a b x : Num} (ha : a ≠ nan) (hb : b ≠ nan) :
    le x (min a b) = (le x a && le x b) := by
  unfold min
  by_cases h : lt b a = true
  · simp only [h, if_true]
    have hba : le b a = true := by simp [lt] at h; exact h.1
    cases hx : le x b
    · simp
    · simp [le_trans' hx hba]
  · simp only [h, if_false, Bool.false_eq_true]
    have hab : le a b = true := by
      rcases le_total_of ha hb with h1 | h1
      · exact h1
      · cases h2 : le a b
        · exact absurd ((not_le_iff_lt ha hb).1 h2) h
        · rfl
    cases hx : le x a
    · simp
    · simp [le_trans' hx hab]

theorem max_ne_nan {a b : Num} (ha : a ≠ nan) (hb : b ≠ nan) : max a b ≠ nan := by
  unfold max; split <;> assumption

theorem min_ne_nan {a b : Num} (ha : a ≠ nan) (hb : b ≠ nan) : min a b ≠ nan := by
  unfold min; split <;> assumption

end Num

end Verif
