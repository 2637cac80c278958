import Lean
import Verif
open Lean
partial def go (env : Environment) (n : Name) : StateM NameSet Unit := do
  if (← get).contains n then return
  match env.find? n with
  | none => return
  | some ci =>
    let some mi := env.getModuleIdxFor? n | return
    let m := env.header.moduleNames[mi.toNat]!
    unless m.getRoot == `Verif do return
    modify (·.insert n)
    for c in ci.type.getUsedConstants do go env c
    match ci.value? (allowOpaque := true) with
    | some v => for c in v.getUsedConstants do go env c
    | none => pure ()
    if let .inductInfo i := ci then for c in i.ctors do go env c
#eval show MetaM Unit from do
  let env ← getEnv
  for (n, ci) in env.constants.map₁.toList do
    if (`DDL.Props).isPrefixOf n then
      if let .thmInfo _ := ci then
        if let .str p s := n then
          if p == `DDL.Props && s.startsWith "C" && (s.toList.getD 3 'x' == '_') then
            let (_, st) := (go env n).run {}
            IO.println s!"{s}\t{" ".intercalate (st.toList.map toString)}"
