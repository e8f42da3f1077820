import Verif.GivenSpec
import Verif.ConditionLemmas

/-!
# C11: bounds given as integers or booleans
-/

namespace Verif.ConditionProps

open Spec Cond

theorem checkAll_stands {l : List V} {r : List Num} (h : List.Forall₂ StandsFor l r) : checkAll V.num? l = .ok r := by
  rw [checkAll_ok]
  induction h with
  | nil => rfl
  | cons h _ ih =>
    rw [List.map_cons, List.map_cons, ih]
    congr 1
    cases h <;> simp [V.num?]

/-- **C11 (bounds given as other objects).** Bounds given as integers, floats or booleans make the condition, or the exception, which the numbers make that they are equal to. -/
theorem C11_given (by_ : String) (idx na : Option (List V)) {lo hi : List V} {lo' hi' : List Num} (hl : List.Forall₂ StandsFor lo lo')
    (hh : List.Forall₂ StandsFor hi hi') (empty sort_ : Bool) :
    init by_ idx (some lo) (some hi) na empty sort_ = init by_ idx (some (lo'.map V.float)) (some (hi'.map V.float)) na empty sort_ := by
  unfold init
  simp only [checkAll_stands hl, checkAll_stands hh, checkAll_float, List.length_map, hl.length_eq, hh.length_eq]

/-- One of the bounds is `True`. -/
example : List.Forall₂ StandsFor [.bool true, .int (-2)] [.fin 1, .fin (-2)] ∧
    (init "index" (some [.int 0, .int 3]) (some [.bool true, .int (-2)]) (some [.float .inf, .int 4]) none false true).toOption.map (·.bmins) =
      some (some [.fin 1, .fin (-2)]) :=
  ⟨.cons .yes (.cons (.int (-2)) .nil), by decide +kernel⟩

end Verif.ConditionProps
