import Verif.Rule

/-!
# What `Rule.predict` returns

`Rule.predict` of the model gives the values; here is the object around them.
-/

namespace Verif.Rule

open Verif

/-- What is returned: an array, a Series with its index, or a single value -/
inductive Answer where
  | array (values : List Label)
  | series (index values : List Label)
  | scalar (value : Label)
  deriving DecidableEq, Repr

/-- `xs.__class__(index=xs.index, data=to_ret).squeeze()`, `/repo/ruleskit/rule.py` line 519: a DataFrame of one column; `squeeze` makes
it a Series, and a single value if there is only one row. -/
def squeezed (index values : List Label) : Except Err Answer :=
  if index.length ≠ values.length then .error .valueError
  else
    match values with
    | [x] => .ok (.scalar x)
    | _ => .ok (.series index values)

/-- `predict`, `/repo/ruleskit/rule.py` lines 487-521; `index` is `xs.index` if `xs` is a DataFrame. -/
def predictObject (E : Env) (r : Rule) (xs : Option Xs) (index : List Label) : Except Err Answer := do
  let values ← predict E r xs
  match xs with
  | some (.frame _) => squeezed index values
  | _ => .ok (.array values)

end Verif.Rule
