import Verif.ConditionSpec
import Verif.Rule
import Mathlib.Order.Monotone.Defs

/-!
# Other units of the features: specification

Each feature is given in another unit, by a strictly increasing function on the rational numbers.
-/

namespace Verif.Scales

open Verif Spec

/-- A value, or a bound, in the other unit: missing values and infinities remain. -/
def onNum (h : Rat → Rat) : Num → Num
  | .fin q => .fin (h q)
  | x => x

/-- A feature with its bounds in the other unit; `h n` is the function for the feature named `n`. -/
def scaled (h : String → Rat → Rat) (f : Feature) : Feature := { f with lo := onNum (h f.name) f.lo, hi := onNum (h f.name) f.hi }

/-- An array with its columns in other units; `g k` is the function for column `k`. -/
def scaledMat (g : Nat → Rat → Rat) (m : Mat) : Mat := ⟨m.ncols, m.rows.map fun r => r.mapIdx fun k x => onNum (g k) x⟩

/-- A DataFrame with its columns in other units -/
def scaledFrame (h : String → Rat → Rat) (f : Frame) : Frame :=
  ⟨f.columns, f.rows.map fun r => r.mapIdx fun k x => onNum (h ((f.columns[k]?).getD "")) x⟩

/-- The column of an array with `ncols` columns which the index `j` means, negative ones counted from the end -/
def columnOf (ncols : Nat) (j : Int) : Nat := (if 0 ≤ j then j else j + ncols).toNat

/-- The data `xs'` are the data `xs` in the other units, for the features `fs`. -/
def Rescaled (h : String → Rat → Rat) (fs : List Feature) : Xs → Xs → Prop
  | .frame f, xs' => xs' = .frame (scaledFrame h f)
  | .arr m, xs' => ∃ g : Nat → Rat → Rat, (∀ k, StrictMono (g k)) ∧ (∀ f ∈ fs, g (columnOf m.ncols f.index) = h f.name) ∧
      xs' = .arr (scaledMat g m)

/-- The rule with another condition -/
def recond (d : Cond) (r : Rule) : Rule := { r with cond := d }

/-- No threshold is on an attribute which shows the condition. -/
def CondFree (E : Env) : Prop := ∀ r d name, E.extra (recond d r) name = E.extra r name

end Verif.Scales
