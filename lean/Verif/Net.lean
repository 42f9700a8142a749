import Verif.Url
import Verif.CmdLine
import Verif.ThmGithubTime

/-!
# The commands that use the network, from arguments to requests

A client is given by its answers to GET requests (package fetch and below are not modelled): for the text of a URL an error or a
body, which may end with an error. `Online` says that the fields of `World` for the network are what the packages hkp, github and
fetch make of such a client.
-/

namespace Gpgpdump

structure Net where
  /-- `fetch.Client.Get` -/
  get : Bytes → Except Nat Src
  /-- the same with the header `Accept: application/vnd.github.v3+json` (github.go:72) -/
  api : Bytes → Except Nat Src

/-- hkp.go:83-97 `Fetch` -/
def netHkp (net : Net) (srv : Server) (userID : Bytes) : Except Nat Src :=
  match serverFetch (some srv) userID with
  | .ok u => net.get (asciiBytes u.text)
  | _ => .error 0

/-- facade/fetch.go:28-46 -/
def netFetch (net : Net) (url : Bytes) : Except Nat Src :=
  match urlParse url with
  | none => .error 0
  | some u => net.get u.text

/-- github.go:27 `DumpBodyAndClose`: the whole body or the error of the reader -/
def netBody : Except Nat Src → Except GHErr Bytes
  | .error c => .error (.request c)
  | .ok s => if s.tail.eqEOF then .ok s.data else .error (.request 0)

/-- github.go:77-80 `Decode`: what the decoder gets to see. It stops behind an array or object, so an error of the reader makes no
difference to a body with one (it is an error anyway without), but for `null` it looks for the end. -/
def pageBody : Except Nat Src → Except GHErr Bytes
  | .error c => .error (.request c)
  | .ok s =>
    if s.tail.eqEOF || decide (s.data.dropWhile (fun c => c = 0x20 || c = 0x09 || c = 0x0a || c = 0x0d) ≠ [0x6e, 0x75, 0x6c, 0x6c]) then .ok s.data
    else .error (.request 0)

/-- github.go:22-32 `Get` and github.go:63-83 `getInPage`. Simplification: without a URL (`makeURL` returns nil) `Get` fails here; what
the client does with nil is not modelled. -/
def netServer (net : Net) (name : Bytes) : GHServer :=
  apiServer
    (match makeURL name with
     | none => .error (.request 0)
     | some u => netBody (net.get u.text))
    (fun n => match makeURLAPI name n with
     | none => .error (.request 0)
     | some u => pageBody (net.api u.text))

structure Online (U : Unicode) (net : Net) (W : World) : Prop where
  hkp : W.hkp = netHkp net
  fetch : ∀ url, W.fetch (octetStr url) = netFetch net url
  github : ∀ name id fuel, (getKey U (netServer net name) id fuel).1 ≠ .running → W.github (octetStr name) id = (getKey U (netServer net name) id fuel).1

end Gpgpdump
