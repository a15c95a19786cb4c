import Verif
open Lean
partial def go (env : Environment) (n : Name) (s : NameSet) : NameSet :=
  if s.contains n then s else
  if !(n.getRoot == `XRD) then s else
  match env.find? n with
  | none => s
  | some c =>
    let s := s.insert n
    let used := (c.type.getUsedConstantsAsSet.toList) ++ (match c.value? true with | some v => v.getUsedConstantsAsSet.toList | none => [])
    used.foldl (fun s m => go env m s) s
run_cmd do
  let env ← getEnv
  let h ← IO.FS.Handle.mk "/tmp/dep/deps.txt" .write
  for (n,c) in env.constants.map₁.toList do
    if n.getRoot == `XRD then
      match n with
      | .str _ l =>
        if l.startsWith "C" && l.length > 4 && ((l.toList.getD 3 'x') == '_' || (l.toList.getD 4 'x') == '_') && ((l.toList.getD 1 'x').isDigit) && c.isTheorem then
          let s := go env n {}
          h.putStrLn (toString n ++ "\t" ++ " ".intercalate (s.toList.map toString))
      | _ => pure ()
