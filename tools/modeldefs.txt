import Verif
/- Prints the signatures of the model's functions for tools/conform.py:
`lake env lean --stdin < ../tools/modeldefs.txt > /tmp/defs.txt` in /verif/lean. -/
open Lean Meta Elab Command
run_cmd liftTermElabM do
  let env ← getEnv
  for (n, ci) in env.constants.map₁.toList do
    let some idx := env.getModuleIdxFor? n | continue
    let m := env.header.moduleNames[idx.toNat]!
    unless (`Verif.Model).isPrefixOf m do continue
    unless ci matches .defnInfo _ do continue
    if n.isInternal then continue
    forallTelescope ci.type fun xs r => do
      let mut args := #[]
      for x in xs do
        let d ← x.fvarId!.getDecl
        if d.binderInfo.isExplicit then
          args := args.push (toString (← ppExpr d.type))
      let s := s!"{n}|{String.intercalate ";" args.toList}|{← ppExpr r}"
      unless s.contains '\n' do IO.println s
