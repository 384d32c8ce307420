import Verif
open Lean Elab Command

partial def collect (env : Environment) (todo : List Name) (seen : NameSet) : NameSet :=
  match todo with
  | [] => seen
  | n :: rest =>
    if seen.contains n then collect env rest seen
    else
      match env.find? n with
      | none => collect env rest seen
      | some ci =>
        let seen := seen.insert n
        let cs := (ci.getUsedConstantsAsSet.toList).filter fun m => (`Verif).isPrefixOf m || (toString m).startsWith "_private.Verif"
        collect env (cs ++ rest) seen

run_cmd do
  let env ← getEnv
  let mut out := ""
  for (n, ci) in env.constants.map₁.toList do
    if (`Verif.Props).isPrefixOf n then
      if let .thmInfo _ := ci then
        let s := n.components.getLast!.toString
        if s.startsWith "C" && s.length > 4 && ((s.drop 3).startsWith "_" || (s.drop 4).startsWith "_") then
          let deps := (collect env [n] {}).toList
          out := out ++ s ++ ":" ++ String.intercalate "," (deps.map toString) ++ "\n"
  IO.FS.writeFile "/tmp/mut/deps.txt" out
