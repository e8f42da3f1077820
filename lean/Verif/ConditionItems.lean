import Verif.ConditionSpec

/-!
# Reading a condition as the sequence of its features
-/

namespace Verif.Cond

/-- `list(c)`, by the protocol of sequences of Python: `c[0]`, `c[1]`, ... until `IndexError`; there is no `__iter__` in
`/repo/ruleskit/condition.py` lines 103-520.  `fuel` bounds the number of calls; running out of it is `ValueError` here. -/
def iterate (c : Cond) : Nat → Int → Except Err (List (String × Int × Num × Num))
  | 0, _ => .error .valueError
  | fuel + 1, i =>
    match getitem c i with
    | .ok x => (iterate c fuel (i + 1)).map (x :: ·)
    | .error .indexError => .ok []
    | .error e => .error e

end Verif.Cond

namespace Verif.Spec

/-- The tuple which describes a feature -/
def tupleOf (f : Feature) : String × Int × Num × Num := (f.name, f.index, f.lo, f.hi)

end Verif.Spec
