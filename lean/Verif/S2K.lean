import Verif.Monad

/-!
# `parse/s2k/s2k.go`: string-to-key specifiers
-/

namespace Gpgpdump

/-- s2k.go:26-106 `Parse(parent, dumpFlag)` together with `HasIV()` (lines 109-111): returns whether an IV follows. -/
def s2kParse (d : Bool) : P Bool := do
  let ss ← readByte
  nested (s2kItem ss d) do
    if ss = 0x00 ∨ ss = 0x01 ∨ ss = 0x03 then
      let hashid ← readByte
      add (hashItem hashid d)
      if ss ≠ 0x00 then
        let salt ← readBytes 8
        add (saltItem salt true)
      else pure ()
      if ss = 0x03 then
        let ct ← readByte
        add (stretchItem ct)
      else pure ()
      return true
    else if ss = 101 then
      if (← rest) < 4 then return true
      else
        let mrk ← readBytes 3
        if mrk = [0x47, 0x4e, 0x55] then
          let n ← readByte
          let enum := 1000 + n.toNat
          let gnu ← build (newItem (S "GNU-divert-to-card") (S "Extension Number " ++ dec enum)) (do
            if enum = 1002 then
              let l ← readByte
              let ser ← readBytes l.toNat
              add (newItem (S "Serial Number") [] [] (dumpBytes ser true))
            else pure ())
          add gnu
          return false
        else
          let _ ← seek (-3) 1
          return true
    else return true

end Gpgpdump
