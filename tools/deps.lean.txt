import Verif
import Lean
open Lean

/-- Constants of this project that a constant uses, directly. -/
def direct (env : Environment) (n : Name) : List Name :=
  match env.find? n with
  | none => []
  | some c =>
    let used := c.type.getUsedConstants ++ (match c.value? (allowOpaque := true) with | some v => v.getUsedConstants | none => #[])
    used.toList.filter fun m => (`Verif).isPrefixOf m

partial def reach (env : Environment) (todo : List Name) (seen : NameSet) : NameSet :=
  match todo with
  | [] => seen
  | n :: t => if seen.contains n then reach env t seen else reach env (direct env n ++ t) (seen.insert n)

run_cmd do
  let env ← getEnv
  let mut out := #[]
  for (n, c) in env.constants.map₁.toList do
    if (`Verif).isPrefixOf n then
      if let .thmInfo _ := c then
        let s := n.componentsRev.head!.toString
        if s.startsWith "C" && (s.toList.drop 1).head?.any Char.isDigit then
          out := out.push (n, (reach env [n] {}).toList)
  for (n, l) in out do
    IO.println s!"{n} {String.intercalate " " (l.map toString)}"
