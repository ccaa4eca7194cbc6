import Verif
import Lean
open Lean Elab Command
partial def reach (env : Environment) (todo : List Name) (seen : NameSet) : NameSet :=
  match todo with
  | [] => seen
  | n :: t =>
    if seen.contains n then reach env t seen
    else if !((`StdBLAS).isPrefixOf n) then reach env t seen
    else
      let seen := seen.insert n
      match env.find? n with
      | some (.defnInfo d) => reach env (d.value.getUsedConstants.toList ++ d.type.getUsedConstants.toList ++ t) seen
      | some (.thmInfo _) => reach env t seen
      | some c => reach env (c.type.getUsedConstants.toList ++ t) seen
      | none => reach env t seen
run_cmd do
  let env ← getEnv
  for (n, c) in env.constants.map₁.toList do
    if (`StdBLAS).isPrefixOf n && n.componentsRev.head!.toString.startsWith "C" && !n.isInternal then
      match c with
      | .thmInfo t =>
        let s := reach env t.type.getUsedConstants.toList {}
        logInfo m!"DEP {n} {s.toList.map toString}"
      | _ => pure ()
