import Verif.ThmJson
import Verif.Parser
import Verif.Github

/-!
# `facade/`: the command line tool

Here a command is given by what cobra passes to `RunE` (the parsed flags and arguments), or by the fact that cobra ends before
(`usage`); how it gets there from the arguments of the process is in `CmdLine.lean`. Standard error is not modelled except for whether writing the version to it works. The network, the
clipboard and the file system are the fields of `World`; they may answer anything.
-/

namespace Gpgpdump
open Spec Spec.Json

/-- The errors that reach `debugPrint` -/
inductive FErr
  | clipboard                -- ecode.ErrClipboard
  | input (code : Nat)       -- clipboard.NewReader, os.Open, fetch.URL, the HTTP client
  | args                     -- os.ErrInvalid
  | keyServer                -- ecode.ErrEmptyKeyServer
  | github (e : GHErr)
  | parse (e : GoErr)
  | json                     -- the encoder of result.Info.JSON
  | write (code : Nat)       -- standard output
  | shortWrite               -- io.ErrShortWrite
  | read (e : GoErr)         -- the source while it is copied (--raw)
  | stderr                   -- standard error
  deriving DecidableEq

structure World where
  stdin : Src
  /-- clipboard.go:11-17 -/
  clipboard : Except Nat Bytes
  /-- `os.Open` -/
  file : Str → Except Nat Src
  /-- `hkp.Server.Fetch` -/
  hkp : Server → Bytes → Except Nat Src
  /-- `github.GetKey` -/
  github : Str → Str → GHRes
  /-- `fetch.URL` and `Get` -/
  fetch : Str → Except Nat Src
  /-- standard output: how many octets it takes and the error -/
  write : Bytes → Nat × Option Nat
  stderrOk : Bool
  /-- `fmt.Sprintf("%+v\n", err)` -/
  fmt : FErr → Bytes

/-- facade.go:93-103 the persistent flags -/
structure Flags where
  json : Bool
  indent : Int
  armor : Bool
  cert : Bool
  debug : Bool
  integer : Bool
  literal : Bool
  marker : Bool
  priv : Bool
  utc : Bool

inductive Command
  | usage (bad : Bool)                                          -- cobra: help, or an error in flags or command name
  | root (version clipboard : Bool) (file : Str)                -- facade.go:42-87
  | version                                                     -- version.go:26-28
  | hkp (args : List Bytes) (server : Bytes) (port : Int) (secure raw : Bool) -- hkp.go:25-91
  | github (args : List Str) (keyID : Str) (raw : Bool)         -- github.go:25-72
  | fetch (args : List Str) (raw : Bool)                        -- fetch.go:22-66

inductive Exit
  | normal
  | abnormal
  deriving DecidableEq

/-- facade.go:140-154 `parseContext`: the context -/
def parseContext (f : Flags) : Ctx :=
  Ctx.new [(ARMOR, f.armor), (CERT, f.cert), (DEBUG, f.debug), (INTEGER, f.integer), (LITERAL, f.literal), (MARKER, f.marker),
    (PRIVATE, f.priv), (UTC, f.utc)]

/-- facade.go:121-129 `marshalPacketInfo`; `none`: the error of the JSON encoder -/
def marshalPacketInfo (f : Flags) (packets : List Item) : Option Bytes :=
  if f.json then (infoJSON f.indent (goItems packets)).map utf8
  else if f.indent > 0 then some (utf8 (infoToString (List.replicate f.indent.toNat ' ') packets))
  else some (utf8 (infoToString ['\t'] packets))

/-- What a `RunE` does before it writes to standard output -/
inductive Step
  | text (out : Bytes) (after : Option GoErr) -- something to copy, and the error of the source at its end
  | nothing
  | fail (e : FErr)
  | panic
  | hang

/-- facade.go:74-86 (hkp.go:78-90, github.go:59-71, fetch.go:53-65) -/
def dump (X : Ext) (ctx : Ctx) (f : Flags) (src : Src) : Step :=
  match parserNew X (some ctx) (some src) with
  | .error e => .fail (.parse e)
  | .ok s =>
    let o := parseSrc X (some ctx) s
    match o.res with
    | .err e => .fail (.parse e)
    | .panic _ => .panic
    | .stuck => .hang
    | .ok _ =>
      match marshalPacketInfo f o.packets with
      | none => .fail .json
      | some t => .text t none

/-- `--raw`: the source is copied as it is -/
def rawCopy (src : Src) : Step := .text src.data (if src.tail.eqEOF then none else some src.tail)

/-- the `RunE` functions up to `WriteFrom` -/
def runE (X : Ext) (W : World) (f : Flags) : Command → Step
  | .usage bad => if bad then .fail .args else .nothing
  | .version => if W.stderrOk then .nothing else .fail .stderr
  | .root version clipboard file =>
    if version then (if W.stderrOk then .nothing else .fail .stderr)
    else if clipboard && decide (file.length > 0) then .fail .clipboard
    else if clipboard then
      match W.clipboard with
      | .error c => .fail (.input c)
      | .ok b => dump X ((parseContext f).set ARMOR true) f (Src.ofBytes b)
    else if file.length > 0 then
      match W.file file with
      | .error c => .fail (.input c)
      | .ok s => dump X (parseContext f) f s
    else dump X (parseContext f) f W.stdin
  | .hkp args server port secure raw =>
    match args with
    | [userID] =>
      if server.length = 0 then .fail .keyServer
      else
        match W.hkp (serverNew server [.protocol (if secure then 2 else 1), .port port]) userID with
        | .error c => .fail (.input c)
        | .ok s => if raw then rawCopy s else dump X ((parseContext f).set ARMOR true) f s
    | _ => .fail .args
  | .github args keyID raw =>
    match args with
    | [userID] =>
      match W.github userID keyID with
      | .err e => .fail (.github e)
      | .panic => .panic
      | .running => .hang
      | .ok b => if raw then .text b none else dump X ((parseContext f).set ARMOR true) f (Src.ofBytes b)
    | _ => .fail .args
  | .fetch args raw =>
    match args with
    | [url] =>
      match W.fetch url with
      | .error c => .fail (.input c)
      | .ok s => if raw then rawCopy s else dump X (parseContext f) f s
    | _ => .fail .args

/-- the value of `debugFlag` when `RunE` ends; only `parseContext` assigns it -/
def debugAfter (stale : Bool) (f : Flags) : Command → Bool
  | .usage _ => stale
  | .version => stale
  | .root version _ _ => if version then stale else (parseContext f).debug
  | .hkp .. => (parseContext f).debug
  | .github .. => (parseContext f).debug
  | .fetch .. => (parseContext f).debug

/-- whether the error of `RunE` goes through `debugPrint` -/
def printed : Command → Bool
  | .usage _ => false
  | .version => false
  | _ => true

/-- rwi `WriteFrom`: `io.Copy` to standard output -/
def writeFrom (W : World) (t : Bytes) (after : Option GoErr) : Bytes × Option FErr :=
  let w := W.write t
  (t.take w.1,
    match w.2 with
    | some c => some (.write c)
    | none => if w.1 < t.length then some .shortWrite else after.map .read)

/-- debug.go:9-15 `debugPrint`: what it writes and what it returns -/
def debugPrint (W : World) (flag : Bool) (err : Option FErr) : Bytes × Option FErr :=
  match err with
  | some e => if flag then ((W.fmt e).take (W.write (W.fmt e)).1, none) else ([], some e)
  | none => ([], none)

structure Run where
  exit : Option Exit -- `none`: it does not end
  stdout : Bytes
  debugFlag : Bool
  deriving DecidableEq

def exitOf : Option FErr → Exit
  | none => .normal
  | some _ => .abnormal

/-- facade.go:157-179 `Execute`, with the value of the global variable `debugFlag` before -/
def execute (X : Ext) (W : World) (stale : Bool) (f : Flags) (cmd : Command) : Run :=
  let flag := debugAfter stale f cmd
  match runE X W f cmd with
  | .hang => ⟨none, [], flag⟩
  | .panic => ⟨some .abnormal, [], flag⟩
  | .nothing => ⟨some .normal, [], flag⟩
  | .fail e =>
    if printed cmd then
      let d := debugPrint W flag (some e)
      ⟨some (exitOf d.2), d.1, flag⟩
    else ⟨some .abnormal, [], flag⟩
  | .text t after =>
    let w := writeFrom W t after
    let d := debugPrint W flag w.2
    ⟨some (exitOf d.2), w.1 ++ d.1, flag⟩

end Gpgpdump
