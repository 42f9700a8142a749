import Verif.CmdLine

/-!
# Standard error

Texts are not modelled, only what kind of text is written. That it arrives is not assumed: see `World.stderrOk`.
-/

namespace Gpgpdump

/-- the kinds of text that the program writes to standard error -/
inductive Notice
  | help    -- cobra: help or completions (facade.go:108-109 sends them to standard error)
  | version -- facade.go:45, version.go:27
  | error   -- cobra `ExecuteC`: `Error:` and the message, since `SilenceErrors` is not set
  | panic   -- facade.go:160-169
  deriving DecidableEq

/-- cobra `ExecuteC`, for the error that `RunE` returns -/
def errNotice : Option FErr → List Notice
  | none => []
  | some _ => [.error]

/-- facade.go:45, version.go:27: the commands that write the version first -/
def versionNotice : Command → List Notice
  | .version => [.version]
  | .root true _ _ => [.version]
  | _ => []

/-- what `Execute` writes to standard error for a command; the cases are those of `execute` -/
def executeErr (X : Ext) (W : World) (stale : Bool) (f : Flags) (cmd : Command) : List Notice :=
  let flag := debugAfter stale f cmd
  match runE X W f cmd with
  | .hang => []
  | .panic => [.panic]
  | .nothing =>
    match cmd with
    | .usage _ => [.help]
    | c => versionNotice c
  | .fail e => versionNotice cmd ++ errNotice (if printed cmd then (debugPrint W flag (some e)).2 else some e)
  | .text t after => errNotice (debugPrint W flag (writeFrom W t after).2).2

/-- completion.go:59-77, the cases are those of `executeCompletion` -/
def completionErr (other : Nat → Nat) (W : World) (script : Shell → Bytes) (stale : Bool) (args : List Bytes) : List Notice :=
  match completionShell other args with
  | some s => errNotice (debugPrint W stale (writeFrom W (script s) none).2).2
  | none => errNotice (debugPrint W stale (some .args)).2

/-- main.go:10-19: standard error of the process -/
def mainErr (X : Ext) (W : World) (other : Nat → Nat) (script : Shell → Bytes) (args : List Bytes) : List Notice :=
  match cbExecute args with
  | .command f c => executeErr X W false f c
  | .completion a => completionErr other W script false a

end Gpgpdump
