import Verif.CmdLine

/-!
# `main.go`
-/

namespace Gpgpdump

/-- gocli `exitcode`: `Normal` is 0 and `Abnormal` is 1; `Exit` hands the number to `os.Exit` -/
def exitStatus : Exit → Nat
  | .normal => 0
  | .abnormal => 1

/-- main.go:10-19: the status of the process (`none`: it does not end) and its standard output. It runs `Execute` once, so the variable
`debugFlag` is false at the start (debug.go:7). -/
def mainRun (X : Ext) (W : World) (other : Nat → Nat) (script : Shell → Bytes) (args : List Bytes) : Option Nat × Bytes :=
  let r := executeArgs X W other script false args
  (r.exit.map exitStatus, r.stdout)

end Gpgpdump
