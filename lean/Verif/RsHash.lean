import Verif.RuleSet

/-!
# The hash of rulesets

Model of `RuleSet.to_hash` and `RuleSet.__hash__`, `/repo/ruleskit/ruleset.py` lines 200-201 and 245-253.

Simplification: two NaN bounds count as the same element of a frozenset; in Python they do if they are the same object.
-/

namespace Verif.RuleSet

open Verif

/-- `to_hash` without its leading `"rs"`, lines 245-253: the triples of all rules, one after the other -/
def triples : List Member → Except Err (List (String × Num × Num))
  | [] => .ok []
  | m :: rest => do
    let t ← m.rule.cond.toHash
    let u ← triples rest
    .ok (t ++ u)

/-- `hash(ruleset)`, lines 200-201: the hash of the frozenset of `"rs"` and of the triples -/
def hash (H : Cond.Hasher) (s : RuleSet) : Except Err Int := do
  let t ← triples s.rules
  .ok (H.frozenset (H.str "rs" :: t.dedup.map fun x => H.tuple [H.str x.1, H.num x.2.1, H.num x.2.2]))

end Verif.RuleSet
