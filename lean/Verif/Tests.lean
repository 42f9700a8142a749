import Verif.Parser

/-!
# The repository's own packet tests, run through the model

The inputs and expected texts are those of `parse/tags/*_test.go`. These are tests of the model's fidelity, not proofs.
-/

namespace Gpgpdump.Tests

/-- environment for the tests: whole days only, no decompression -/
def X : Ext where
  localTime := rfc3339UTC
  days t := dec (t.toNat / 86400)
  flate _ := ⟨[], rawErr .eof, [], false⟩
  zlib _ := .ok ⟨[], rawErr .eof, [], false⟩
  bzip2 _ := ⟨[], rawErr .eof, [], false⟩
  armor b := .ok ⟨b, rawErr .eof, [], false⟩
  grow n := 2 * n

/-- options of the tests (tag01_test.go:48-56 etc.) -/
def cxt : Ctx := Ctx.new [(DEBUG, true), (GDUMP, true), (INTEGER, true), (LITERAL, true), (MARKER, true), (PRIVATE, true),
  (UTC, true)]

/-- `NewTag(op, cxt).Parse()`, then `item.String()` and `cxt.AlgMode()` -/
def runTest (tag : Nat) (content : Bytes) (ktm : Option Bytes) (mode : Mode) (expected : String)
    (before : Mode := .notSpecified) : Bool :=
  let c := { cxt with keyTime := ktm.map fun b => ⟨b, true⟩, mode := before }
  match parseTag X tag content ⟨some c, Reader.new [], newItem []⟩ with
  | (.ok i, st) => String.ofList (i.toStr ['\t'] 0) == expected && st.ctx.map (·.mode) == some mode
  | _ => false

-- tag01_test.go
#guard runTest 1 [3, 238, 6, 107, 254, 37, 44, 77, 121, 18, 2, 3, 4, 195, 231, 215, 43, 175, 37, 42, 25, 246, 39, 128, 234, 124, 79, 109, 202, 97, 34, 90, 227, 173, 12, 251, 217, 162, 213, 164, 48, 154, 243, 238, 52, 84, 174, 168, 246, 70, 172, 138, 174, 56, 166, 79, 243, 242, 238, 48, 64, 98, 91, 7, 231, 43, 238, 154, 144, 212, 111, 30, 215, 195, 38, 33, 171, 48, 74, 254, 136, 162, 159, 14, 171, 243, 190, 122, 137, 39, 50, 56, 184, 6, 117, 252, 172, 60, 212, 186, 15, 73, 100, 21, 170, 72, 154, 219, 193, 138, 123, 17, 118, 251, 47, 239, 239, 176, 41, 169, 36, 117, 109, 105, 18, 77] none .pubEnc "Public-Key Encrypted Session Key Packet (tag 1) (126 bytes)\n\t03 ee 06 6b fe 25 2c 4d 79 12 02 03 04 c3 e7 d7 2b af 25 2a 19 f6 27 80 ea 7c 4f 6d ca 61 22 5a e3 ad 0c fb d9 a2 d5 a4 30 9a f3 ee 34 54 ae a8 f6 46 ac 8a ae 38 a6 4f f3 f2 ee 30 40 62 5b 07 e7 2b ee 9a 90 d4 6f 1e d7 c3 26 21 ab 30 4a fe 88 a2 9f 0e ab f3 be 7a 89 27 32 38 b8 06 75 fc ac 3c d4 ba 0f 49 64 15 aa 48 9a db c1 8a 7b 11 76 fb 2f ef ef b0 29 a9 24 75 6d 69 12 4d\n\tVersion: 3 (current)\n\t\t03\n\tKey ID: 0xee066bfe252c4d79\n\tPublic-key Algorithm: ECDH public key algorithm (pub 18)\n\t\t12\n\tECDH EC point (uncompressed format) (515 bits)\n\t\t04 c3 e7 d7 2b af 25 2a 19 f6 27 80 ea 7c 4f 6d ca 61 22 5a e3 ad 0c fb d9 a2 d5 a4 30 9a f3 ee 34 54 ae a8 f6 46 ac 8a ae 38 a6 4f f3 f2 ee 30 40 62 5b 07 e7 2b ee 9a 90 d4 6f 1e d7 c3 26 21 ab\n\tsymmetric key (encoded) (48 bytes)\n\t\t4a fe 88 a2 9f 0e ab f3 be 7a 89 27 32 38 b8 06 75 fc ac 3c d4 ba 0f 49 64 15 aa 48 9a db c1 8a 7b 11 76 fb 2f ef ef b0 29 a9 24 75 6d 69 12 4d\n" 
-- tag02_test.go
#guard runTest 2 [4, 1, 19, 8, 0, 6, 5, 2, 84, 195, 8, 223, 0, 10, 9, 16, 49, 251, 253, 169, 95, 187, 250, 24, 54, 31, 1, 0, 234, 29, 162, 20, 91, 130, 6, 253, 213, 174, 196, 159, 216, 20, 68, 65, 164, 245, 79, 86, 105, 173, 154, 176, 68, 243, 163, 136, 178, 96, 244, 12, 0, 252, 10, 211, 192, 35, 243, 237, 205, 175, 155, 25, 111, 238, 196, 101, 68, 181, 8, 232, 39, 108, 58, 168, 110, 59, 82, 159, 97, 122, 234, 238, 39, 72] none .notSpecified "Signature Packet (tag 2) (94 bytes)\n\t04 01 13 08 00 06 05 02 54 c3 08 df 00 0a 09 10 31 fb fd a9 5f bb fa 18 36 1f 01 00 ea 1d a2 14 5b 82 06 fd d5 ae c4 9f d8 14 44 41 a4 f5 4f 56 69 ad 9a b0 44 f3 a3 88 b2 60 f4 0c 00 fc 0a d3 c0 23 f3 ed cd af 9b 19 6f ee c4 65 44 b5 08 e8 27 6c 3a a8 6e 3b 52 9f 61 7a ea ee 27 48\n\tVersion: 4 (current)\n\t\t04\n\tSigniture Type: Signature of a canonical text document (0x01)\n\t\t01\n\tPublic-key Algorithm: ECDSA public key algorithm (pub 19)\n\t\t13\n\tHash Algorithm: SHA2-256 (hash 8)\n\t\t08\n\tHashed Subpacket (6 bytes)\n\t\t05 02 54 c3 08 df\n\t\tSignature Creation Time (sub 2): 2015-01-24T02:52:15Z\n\t\t\t54 c3 08 df\n\tUnhashed Subpacket (10 bytes)\n\t\t09 10 31 fb fd a9 5f bb fa 18\n\t\tIssuer (sub 16): 0x31fbfda95fbbfa18\n\tHash left 2 bytes\n\t\t36 1f\n\tECDSA value r (256 bits)\n\t\tea 1d a2 14 5b 82 06 fd d5 ae c4 9f d8 14 44 41 a4 f5 4f 56 69 ad 9a b0 44 f3 a3 88 b2 60 f4 0c\n\tECDSA value s (252 bits)\n\t\t0a d3 c0 23 f3 ed cd af 9b 19 6f ee c4 65 44 b5 08 e8 27 6c 3a a8 6e 3b 52 9f 61 7a ea ee 27 48\n" 
-- tag02_test.go
#guard runTest 2 [4, 0, 17, 8, 0, 29, 22, 33, 4, 27, 82, 2, 219, 74, 62, 199, 118, 241, 224, 173, 24, 180, 218, 59, 174, 126, 32, 184, 28, 5, 2, 90, 25, 13, 228, 0, 10, 9, 16, 180, 218, 59, 174, 126, 32, 184, 28, 115, 60, 1, 0, 132, 239, 238, 174, 34, 105, 46, 175, 51, 179, 133, 225, 238, 170, 93, 47, 122, 212, 174, 163, 146, 211, 232, 115, 212, 176, 0, 62, 201, 43, 128, 247, 0, 255, 124, 204, 185, 210, 6, 72, 179, 57, 88, 155, 168, 153, 197, 194, 83, 98, 189, 143, 22, 73, 115, 224, 101, 254, 166, 247, 24, 26, 120, 255, 101, 230] none .notSpecified "Signature Packet (tag 2) (117 bytes)\n\t04 00 11 08 00 1d 16 21 04 1b 52 02 db 4a 3e c7 76 f1 e0 ad 18 b4 da 3b ae 7e 20 b8 1c 05 02 5a 19 0d e4 00 0a 09 10 b4 da 3b ae 7e 20 b8 1c 73 3c 01 00 84 ef ee ae 22 69 2e af 33 b3 85 e1 ee aa 5d 2f 7a d4 ae a3 92 d3 e8 73 d4 b0 00 3e c9 2b 80 f7 00 ff 7c cc b9 d2 06 48 b3 39 58 9b a8 99 c5 c2 53 62 bd 8f 16 49 73 e0 65 fe a6 f7 18 1a 78 ff 65 e6\n\tVersion: 4 (current)\n\t\t04\n\tSigniture Type: Signature of a binary document (0x00)\n\t\t00\n\tPublic-key Algorithm: DSA (Digital Signature Algorithm) (pub 17)\n\t\t11\n\tHash Algorithm: SHA2-256 (hash 8)\n\t\t08\n\tHashed Subpacket (29 bytes)\n\t\t16 21 04 1b 52 02 db 4a 3e c7 76 f1 e0 ad 18 b4 da 3b ae 7e 20 b8 1c 05 02 5a 19 0d e4\n\t\tIssuer Fingerprint (sub 33) (21 bytes)\n\t\t\t04 1b 52 02 db 4a 3e c7 76 f1 e0 ad 18 b4 da 3b ae 7e 20 b8 1c\n\t\t\tVersion: 4 (need 20 octets length)\n\t\t\tFingerprint (20 bytes)\n\t\t\t\t1b 52 02 db 4a 3e c7 76 f1 e0 ad 18 b4 da 3b ae 7e 20 b8 1c\n\t\tSignature Creation Time (sub 2): 2017-11-25T06:29:56Z\n\t\t\t5a 19 0d e4\n\tUnhashed Subpacket (10 bytes)\n\t\t09 10 b4 da 3b ae 7e 20 b8 1c\n\t\tIssuer (sub 16): 0xb4da3bae7e20b81c\n\tHash left 2 bytes\n\t\t73 3c\n\tDSA value r (256 bits)\n\t\t84 ef ee ae 22 69 2e af 33 b3 85 e1 ee aa 5d 2f 7a d4 ae a3 92 d3 e8 73 d4 b0 00 3e c9 2b 80 f7\n\tDSA value s (255 bits)\n\t\t7c cc b9 d2 06 48 b3 39 58 9b a8 99 c5 c2 53 62 bd 8f 16 49 73 e0 65 fe a6 f7 18 1a 78 ff 65 e6\n" 
-- tag02_test.go
#guard runTest 2 [4, 24, 19, 8, 0, 15, 5, 2, 84, 195, 1, 191, 2, 27, 12, 5, 9, 0, 9, 58, 128, 0, 10, 9, 16, 49, 251, 253, 169, 95, 187, 250, 24, 198, 39, 1, 0, 192, 47, 118, 90, 16, 109, 29, 34, 30, 98, 193, 155, 188, 98, 209, 6, 74, 241, 58, 71, 90, 233, 11, 241, 57, 108, 227, 103, 160, 150, 60, 210, 1, 0, 140, 89, 28, 58, 133, 14, 30, 211, 152, 69, 19, 77, 48, 226, 185, 164, 21, 14, 27, 109, 102, 26, 167, 231, 213, 226, 81, 7, 149, 96, 135, 145] (some [84, 195, 1, 191]) .notSpecified "Signature Packet (tag 2) (103 bytes)\n\t04 18 13 08 00 0f 05 02 54 c3 01 bf 02 1b 0c 05 09 00 09 3a 80 00 0a 09 10 31 fb fd a9 5f bb fa 18 c6 27 01 00 c0 2f 76 5a 10 6d 1d 22 1e 62 c1 9b bc 62 d1 06 4a f1 3a 47 5a e9 0b f1 39 6c e3 67 a0 96 3c d2 01 00 8c 59 1c 3a 85 0e 1e d3 98 45 13 4d 30 e2 b9 a4 15 0e 1b 6d 66 1a a7 e7 d5 e2 51 07 95 60 87 91\n\tVersion: 4 (current)\n\t\t04\n\tSigniture Type: Subkey Binding Signature (0x18)\n\t\t18\n\tPublic-key Algorithm: ECDSA public key algorithm (pub 19)\n\t\t13\n\tHash Algorithm: SHA2-256 (hash 8)\n\t\t08\n\tHashed Subpacket (15 bytes)\n\t\t05 02 54 c3 01 bf 02 1b 0c 05 09 00 09 3a 80\n\t\tSignature Creation Time (sub 2): 2015-01-24T02:21:51Z\n\t\t\t54 c3 01 bf\n\t\tKey Flags (sub 27) (1 bytes)\n\t\t\t0c\n\t\t\tFlag: This key may be used to encrypt communications.\n\t\t\tFlag: This key may be used to encrypt storage.\n\t\tKey Expiration Time (sub 9): 7 days after (2015-01-31T02:21:51Z)\n\t\t\t00 09 3a 80\n\tUnhashed Subpacket (10 bytes)\n\t\t09 10 31 fb fd a9 5f bb fa 18\n\t\tIssuer (sub 16): 0x31fbfda95fbbfa18\n\tHash left 2 bytes\n\t\tc6 27\n\tECDSA value r (256 bits)\n\t\tc0 2f 76 5a 10 6d 1d 22 1e 62 c1 9b bc 62 d1 06 4a f1 3a 47 5a e9 0b f1 39 6c e3 67 a0 96 3c d2\n\tECDSA value s (256 bits)\n\t\t8c 59 1c 3a 85 0e 1e d3 98 45 13 4d 30 e2 b9 a4 15 0e 1b 6d 66 1a a7 e7 d5 e2 51 07 95 60 87 91\n" 
-- tag02_test.go
#guard runTest 2 [3, 5, 0, 54, 94, 186, 68, 15, 100, 138, 28, 158, 79, 116, 77, 1, 1, 102, 54, 4, 0, 143, 140, 107, 69, 167, 101, 189, 55, 246, 118, 88, 133, 124, 57, 102, 122, 197, 193, 72, 243, 184, 133, 105, 127, 34, 84, 113, 80, 14, 151, 178, 81, 119, 83, 162, 34, 212, 70, 236, 12, 80, 190, 238, 230, 176, 194, 118, 8, 240, 107, 14, 108, 252, 230, 239, 205, 16, 61, 16, 253, 179, 135, 64, 32, 85, 108, 6, 174, 65, 197, 124, 13, 23, 117, 68, 50, 125, 8, 65, 69, 149, 218, 214, 87, 116, 88, 56, 114, 110, 247, 31, 99, 206, 216, 0, 27, 37, 55, 35, 178, 86, 26, 2, 154, 238, 90, 87, 247, 163, 171, 45, 137, 32, 133, 28, 197, 192, 236, 100, 233, 47, 11, 245, 75, 95, 43, 101, 57] (some [84, 195, 1, 191]) .notSpecified "Signature Packet (tag 2) (149 bytes)\n\t03 05 00 36 5e ba 44 0f 64 8a 1c 9e 4f 74 4d 01 01 66 36 04 00 8f 8c 6b 45 a7 65 bd 37 f6 76 58 85 7c 39 66 7a c5 c1 48 f3 b8 85 69 7f 22 54 71 50 0e 97 b2 51 77 53 a2 22 d4 46 ec 0c 50 be ee e6 b0 c2 76 08 f0 6b 0e 6c fc e6 ef cd 10 3d 10 fd b3 87 40 20 55 6c 06 ae 41 c5 7c 0d 17 75 44 32 7d 08 41 45 95 da d6 57 74 58 38 72 6e f7 1f 63 ce d8 00 1b 25 37 23 b2 56 1a 02 9a ee 5a 57 f7 a3 ab 2d 89 20 85 1c c5 c0 ec 64 e9 2f 0b f5 4b 5f 2b 65 39\n\tVersion: 3 (old)\n\t\t03\n\tHashed material (5 bytes)\n\t\tSigniture Type: Signature of a binary document (0x00)\n\t\t\t00\n\t\tSignature creation time: 1998-11-27T14:42:12Z\n\t\t\t36 5e ba 44\n\tKey ID: 0x0f648a1c9e4f744d\n\tPublic-key Algorithm: RSA (Encrypt or Sign) (pub 1)\n\t\t01\n\tHash Algorithm: MD5 (hash 1)\n\t\t01\n\tHash left 2 bytes\n\t\t66 36\n\tRSA signature value m^d mod n (1024 bits)\n\t\t8f 8c 6b 45 a7 65 bd 37 f6 76 58 85 7c 39 66 7a c5 c1 48 f3 b8 85 69 7f 22 54 71 50 0e 97 b2 51 77 53 a2 22 d4 46 ec 0c 50 be ee e6 b0 c2 76 08 f0 6b 0e 6c fc e6 ef cd 10 3d 10 fd b3 87 40 20 55 6c 06 ae 41 c5 7c 0d 17 75 44 32 7d 08 41 45 95 da d6 57 74 58 38 72 6e f7 1f 63 ce d8 00 1b 25 37 23 b2 56 1a 02 9a ee 5a 57 f7 a3 ab 2d 89 20 85 1c c5 c0 ec 64 e9 2f 0b f5 4b 5f 2b 65 39\n" 
-- tag02_test.go
#guard runTest 2 [4, 19, 1, 8, 0, 30, 5, 2, 90, 250, 133, 101, 2, 155, 47, 5, 139, 9, 8, 7, 2, 6, 149, 10, 9, 8, 11, 2, 4, 150, 2, 3, 1, 2, 158, 1, 0, 10, 9, 16, 142, 61, 186, 14, 196, 220, 195, 183, 239, 86, 7, 255, 99, 207, 0, 7, 50, 215, 76, 88, 11, 163, 129, 14, 215, 62, 222, 4, 212, 248, 99, 135, 73, 243, 60, 138, 54, 71, 48, 37, 21, 91, 58, 234, 117, 149, 83, 112, 49, 190, 185, 35, 42, 167, 197, 180, 215, 86, 203, 0, 28, 198, 3, 244, 73, 135, 205, 7, 213, 212, 31, 193, 149, 193, 247, 14, 22, 39, 84, 218, 78, 160, 234, 222, 91, 221, 235, 77, 23, 25, 75, 97, 48, 82, 208, 2, 80, 22, 90, 181, 207, 167, 100, 44, 137, 255, 103, 18, 155, 206, 182, 186, 146, 164, 97, 37, 150, 6, 20, 35, 237, 109, 48, 143, 229, 38, 156, 102, 91, 111, 52, 5, 102, 19, 183, 205, 144, 188, 56, 132, 175, 95, 143, 32, 7, 208, 229, 189, 23, 35, 79, 42, 93, 55, 23, 216, 248, 180, 47, 230, 190, 40, 121, 188, 0, 5, 24, 172, 171, 214, 234, 157, 244, 108, 26, 221, 201, 106, 135, 158, 25, 47, 255, 18, 170, 105, 73, 62, 147, 238, 120, 140, 247, 171, 41, 213, 220, 71, 80, 166, 148, 2, 164, 180, 151, 16, 164, 125, 74, 54, 190, 254, 233, 31, 196, 68, 99, 123, 117, 85, 59, 213, 123, 247, 118, 22, 147, 1, 179, 190, 240, 28, 196, 18, 42, 81, 153, 162, 244, 157, 34, 10, 81, 140, 150, 119, 77, 148, 36, 50, 10, 222, 91, 125, 83, 75, 36, 171, 252, 48, 153, 216, 124, 11, 136, 138, 117, 77] (some [84, 195, 1, 191]) .notSpecified "Signature Packet (tag 2) (308 bytes)\n\t04 13 01 08 00 1e 05 02 5a fa 85 65 02 9b 2f 05 8b 09 08 07 02 06 95 0a 09 08 0b 02 04 96 02 03 01 02 9e 01 00 0a 09 10 8e 3d ba 0e c4 dc c3 b7 ef 56 07 ff 63 cf 00 07 32 d7 4c 58 0b a3 81 0e d7 3e de 04 d4 f8 63 87 49 f3 3c 8a 36 47 30 25 15 5b 3a ea 75 95 53 70 31 be b9 23 2a a7 c5 b4 d7 56 cb 00 1c c6 03 f4 49 87 cd 07 d5 d4 1f c1 95 c1 f7 0e 16 27 54 da 4e a0 ea de 5b dd eb 4d 17 19 4b 61 30 52 d0 02 50 16 5a b5 cf a7 64 2c 89 ff 67 12 9b ce b6 ba 92 a4 61 25 96 06 14 23 ed 6d 30 8f e5 26 9c 66 5b 6f 34 05 66 13 b7 cd 90 bc 38 84 af 5f 8f 20 07 d0 e5 bd 17 23 4f 2a 5d 37 17 d8 f8 b4 2f e6 be 28 79 bc 00 05 18 ac ab d6 ea 9d f4 6c 1a dd c9 6a 87 9e 19 2f ff 12 aa 69 49 3e 93 ee 78 8c f7 ab 29 d5 dc 47 50 a6 94 02 a4 b4 97 10 a4 7d 4a 36 be fe e9 1f c4 44 63 7b 75 55 3b d5 7b f7 76 16 93 01 b3 be f0 1c c4 12 2a 51 99 a2 f4 9d 22 0a 51 8c 96 77 4d 94 24 32 0a de 5b 7d 53 4b 24 ab fc 30 99 d8 7c 0b 88 8a 75 4d\n\tVersion: 4 (current)\n\t\t04\n\tSigniture Type: Positive certification of a User ID and Public-Key packet (0x13)\n\t\t13\n\tPublic-key Algorithm: RSA (Encrypt or Sign) (pub 1)\n\t\t01\n\tHash Algorithm: SHA2-256 (hash 8)\n\t\t08\n\tHashed Subpacket (30 bytes)\n\t\t05 02 5a fa 85 65 02 9b 2f 05 8b 09 08 07 02 06 95 0a 09 08 0b 02 04 96 02 03 01 02 9e 01\n\t\tSignature Creation Time (sub 2): 2018-05-15T06:59:49Z\n\t\t\t5a fa 85 65\n\t\tKey Flags <critical> (sub 27) (1 bytes)\n\t\t\t2f\n\t\t\tFlag: This key may be used to certify other keys.\n\t\t\tFlag: This key may be used to sign data.\n\t\t\tFlag: This key may be used to encrypt communications.\n\t\t\tFlag: This key may be used to encrypt storage.\n\t\t\tFlag: This key may be used for authentication.\n\t\tPreferred Symmetric Algorithms <critical> (sub 11) (4 bytes)\n\t\t\t09 08 07 02\n\t\t\tSymmetric Algorithm: AES with 256-bit key (sym 9)\n\t\t\t\t09\n\t\t\tSymmetric Algorithm: AES with 192-bit key (sym 8)\n\t\t\t\t08\n\t\t\tSymmetric Algorithm: AES with 128-bit key (sym 7)\n\t\t\t\t07\n\t\t\tSymmetric Algorithm: TripleDES (168 bit key derived from 192) (sym 2)\n\t\t\t\t02\n\t\tPreferred Hash Algorithms <critical> (sub 21) (5 bytes)\n\t\t\t0a 09 08 0b 02\n\t\t\tHash Algorithm: SHA2-512 (hash 10)\n\t\t\t\t0a\n\t\t\tHash Algorithm: SHA2-384 (hash 9)\n\t\t\t\t09\n\t\t\tHash Algorithm: SHA2-256 (hash 8)\n\t\t\t\t08\n\t\t\tHash Algorithm: SHA2-224 (hash 11)\n\t\t\t\t0b\n\t\t\tHash Algorithm: SHA-1 (hash 2)\n\t\t\t\t02\n\t\tPreferred Compression Algorithms <critical> (sub 22) (3 bytes)\n\t\t\t02 03 01\n\t\t\tCompression Algorithm: ZLIB <RFC1950> (comp 2)\n\t\t\t\t02\n\t\t\tCompression Algorithm: BZip2 (comp 3)\n\t\t\t\t03\n\t\t\tCompression Algorithm: ZIP <RFC1951> (comp 1)\n\t\t\t\t01\n\t\tFeatures <critical> (sub 30) (1 bytes)\n\t\t\t01\n\t\t\tFlag: Modification Detection (packets 18 and 19)\n\tUnhashed Subpacket (10 bytes)\n\t\t09 10 8e 3d ba 0e c4 dc c3 b7\n\t\tIssuer (sub 16): 0x8e3dba0ec4dcc3b7\n\tHash left 2 bytes\n\t\tef 56\n\tRSA signature value m^d mod n (2047 bits)\n\t\t63 cf 00 07 32 d7 4c 58 0b a3 81 0e d7 3e de 04 d4 f8 63 87 49 f3 3c 8a 36 47 30 25 15 5b 3a ea 75 95 53 70 31 be b9 23 2a a7 c5 b4 d7 56 cb 00 1c c6 03 f4 49 87 cd 07 d5 d4 1f c1 95 c1 f7 0e 16 27 54 da 4e a0 ea de 5b dd eb 4d 17 19 4b 61 30 52 d0 02 50 16 5a b5 cf a7 64 2c 89 ff 67 12 9b ce b6 ba 92 a4 61 25 96 06 14 23 ed 6d 30 8f e5 26 9c 66 5b 6f 34 05 66 13 b7 cd 90 bc 38 84 af 5f 8f 20 07 d0 e5 bd 17 23 4f 2a 5d 37 17 d8 f8 b4 2f e6 be 28 79 bc 00 05 18 ac ab d6 ea 9d f4 6c 1a dd c9 6a 87 9e 19 2f ff 12 aa 69 49 3e 93 ee 78 8c f7 ab 29 d5 dc 47 50 a6 94 02 a4 b4 97 10 a4 7d 4a 36 be fe e9 1f c4 44 63 7b 75 55 3b d5 7b f7 76 16 93 01 b3 be f0 1c c4 12 2a 51 99 a2 f4 9d 22 0a 51 8c 96 77 4d 94 24 32 0a de 5b 7d 53 4b 24 ab fc 30 99 d8 7c 0b 88 8a 75 4d\n" 
-- tag02_test.go
#guard runTest 2 [4, 19, 22, 10, 0, 48, 2, 155, 3, 5, 130, 91, 26, 78, 29, 5, 137, 1, 223, 226, 0, 22, 161, 4, 43, 119, 87, 216, 175, 40, 52, 104, 160, 87, 70, 153, 145, 14, 85, 68, 120, 204, 222, 0, 9, 144, 145, 14, 85, 68, 120, 204, 222, 0, 0, 0, 189, 252, 0, 253, 23, 226, 178, 169, 164, 221, 73, 156, 103, 232, 162, 157, 130, 183, 14, 138, 233, 238, 196, 13, 105, 103, 246, 207, 217, 54, 1, 88, 181, 232, 138, 180, 0, 251, 4, 230, 244, 173, 154, 73, 207, 88, 186, 86, 201, 112, 81, 119, 92, 164, 9, 15, 59, 202, 120, 60, 164, 158, 137, 62, 77, 92, 216, 33, 83, 8] (some [91, 26, 78, 29]) .notSpecified "Signature Packet (tag 2) (126 bytes)\n\t04 13 16 0a 00 30 02 9b 03 05 82 5b 1a 4e 1d 05 89 01 df e2 00 16 a1 04 2b 77 57 d8 af 28 34 68 a0 57 46 99 91 0e 55 44 78 cc de 00 09 90 91 0e 55 44 78 cc de 00 00 00 bd fc 00 fd 17 e2 b2 a9 a4 dd 49 9c 67 e8 a2 9d 82 b7 0e 8a e9 ee c4 0d 69 67 f6 cf d9 36 01 58 b5 e8 8a b4 00 fb 04 e6 f4 ad 9a 49 cf 58 ba 56 c9 70 51 77 5c a4 09 0f 3b ca 78 3c a4 9e 89 3e 4d 5c d8 21 53 08\n\tVersion: 4 (current)\n\t\t04\n\tSigniture Type: Positive certification of a User ID and Public-Key packet (0x13)\n\t\t13\n\tPublic-key Algorithm: EdDSA (pub 22)\n\t\t16\n\tHash Algorithm: SHA2-512 (hash 10)\n\t\t0a\n\tHashed Subpacket (48 bytes)\n\t\t02 9b 03 05 82 5b 1a 4e 1d 05 89 01 df e2 00 16 a1 04 2b 77 57 d8 af 28 34 68 a0 57 46 99 91 0e 55 44 78 cc de 00 09 90 91 0e 55 44 78 cc de 00\n\t\tKey Flags <critical> (sub 27) (1 bytes)\n\t\t\t03\n\t\t\tFlag: This key may be used to certify other keys.\n\t\t\tFlag: This key may be used to sign data.\n\t\tSignature Creation Time <critical> (sub 2): 2018-06-08T09:36:29Z\n\t\t\t5b 1a 4e 1d\n\t\tKey Expiration Time <critical> (sub 9): 364 days after (2019-06-07T09:36:29Z)\n\t\t\t01 df e2 00\n\t\tIssuer Fingerprint <critical> (sub 33) (21 bytes)\n\t\t\t04 2b 77 57 d8 af 28 34 68 a0 57 46 99 91 0e 55 44 78 cc de 00\n\t\t\tVersion: 4 (need 20 octets length)\n\t\t\tFingerprint (20 bytes)\n\t\t\t\t2b 77 57 d8 af 28 34 68 a0 57 46 99 91 0e 55 44 78 cc de 00\n\t\tIssuer <critical> (sub 16): 0x910e554478ccde00\n\tHash left 2 bytes\n\t\tbd fc\n\tEC point r (253 bits)\n\t\t17 e2 b2 a9 a4 dd 49 9c 67 e8 a2 9d 82 b7 0e 8a e9 ee c4 0d 69 67 f6 cf d9 36 01 58 b5 e8 8a b4\n\tEdDSA value s in the little endian representation (251 bits)\n\t\t04 e6 f4 ad 9a 49 cf 58 ba 56 c9 70 51 77 5c a4 09 0f 3b ca 78 3c a4 9e 89 3e 4d 5c d8 21 53 08\n" 
-- tag02_test.go
#guard runTest 2 [5, 19, 22, 8, 0, 72, 34, 33, 5, 25, 52, 123, 201, 135, 36, 100, 2, 95, 153, 223, 62, 194, 224, 0, 14, 217, 136, 72, 146, 225, 247, 179, 234, 76, 148, 0, 145, 89, 86, 155, 84, 5, 2, 92, 145, 244, 228, 2, 27, 3, 5, 11, 9, 8, 7, 2, 3, 34, 2, 1, 6, 21, 10, 9, 8, 11, 2, 4, 22, 2, 3, 1, 2, 30, 7, 2, 23, 128, 0, 0, 245, 192, 0, 254, 56, 145, 223, 35, 44, 100, 199, 132, 67, 141, 46, 234, 236, 196, 161, 118, 186, 81, 119, 149, 253, 45, 240, 192, 144, 23, 68, 156, 189, 51, 203, 52, 0, 255, 111, 184, 191, 251, 3, 36, 223, 21, 124, 48, 205, 40, 195, 157, 137, 179, 75, 74, 128, 133, 178, 195, 67, 174, 55, 55, 227, 23, 24, 18, 118, 5] (some [91, 26, 78, 29]) .notSpecified "Signature Packet (tag 2) (150 bytes)\n\t05 13 16 08 00 48 22 21 05 19 34 7b c9 87 24 64 02 5f 99 df 3e c2 e0 00 0e d9 88 48 92 e1 f7 b3 ea 4c 94 00 91 59 56 9b 54 05 02 5c 91 f4 e4 02 1b 03 05 0b 09 08 07 02 03 22 02 01 06 15 0a 09 08 0b 02 04 16 02 03 01 02 1e 07 02 17 80 00 00 f5 c0 00 fe 38 91 df 23 2c 64 c7 84 43 8d 2e ea ec c4 a1 76 ba 51 77 95 fd 2d f0 c0 90 17 44 9c bd 33 cb 34 00 ff 6f b8 bf fb 03 24 df 15 7c 30 cd 28 c3 9d 89 b3 4b 4a 80 85 b2 c3 43 ae 37 37 e3 17 18 12 76 05\n\tVersion: 5 (draft)\n\t\t05\n\tSigniture Type: Positive certification of a User ID and Public-Key packet (0x13)\n\t\t13\n\tPublic-key Algorithm: EdDSA (pub 22)\n\t\t16\n\tHash Algorithm: SHA2-256 (hash 8)\n\t\t08\n\tHashed Subpacket (72 bytes)\n\t\t22 21 05 19 34 7b c9 87 24 64 02 5f 99 df 3e c2 e0 00 0e d9 88 48 92 e1 f7 b3 ea 4c 94 00 91 59 56 9b 54 05 02 5c 91 f4 e4 02 1b 03 05 0b 09 08 07 02 03 22 02 01 06 15 0a 09 08 0b 02 04 16 02 03 01 02 1e 07 02 17 80\n\t\tIssuer Fingerprint (sub 33) (33 bytes)\n\t\t\t05 19 34 7b c9 87 24 64 02 5f 99 df 3e c2 e0 00 0e d9 88 48 92 e1 f7 b3 ea 4c 94 00 91 59 56 9b 54\n\t\t\tVersion: 5 (need 32 octets length)\n\t\t\tFingerprint (32 bytes)\n\t\t\t\t19 34 7b c9 87 24 64 02 5f 99 df 3e c2 e0 00 0e d9 88 48 92 e1 f7 b3 ea 4c 94 00 91 59 56 9b 54\n\t\tSignature Creation Time (sub 2): 2019-03-20T08:08:04Z\n\t\t\t5c 91 f4 e4\n\t\tKey Flags (sub 27) (1 bytes)\n\t\t\t03\n\t\t\tFlag: This key may be used to certify other keys.\n\t\t\tFlag: This key may be used to sign data.\n\t\tPreferred Symmetric Algorithms (sub 11) (4 bytes)\n\t\t\t09 08 07 02\n\t\t\tSymmetric Algorithm: AES with 256-bit key (sym 9)\n\t\t\t\t09\n\t\t\tSymmetric Algorithm: AES with 192-bit key (sym 8)\n\t\t\t\t08\n\t\t\tSymmetric Algorithm: AES with 128-bit key (sym 7)\n\t\t\t\t07\n\t\t\tSymmetric Algorithm: TripleDES (168 bit key derived from 192) (sym 2)\n\t\t\t\t02\n\t\tPreferred AEAD Algorithms (sub 34) (2 bytes)\n\t\t\t02 01\n\t\t\tAEAD Algorithm: OCB mode <RFC7253> (aead 2)\n\t\t\t\t02\n\t\t\tAEAD Algorithm: EAX mode (aead 1)\n\t\t\t\t01\n\t\tPreferred Hash Algorithms (sub 21) (5 bytes)\n\t\t\t0a 09 08 0b 02\n\t\t\tHash Algorithm: SHA2-512 (hash 10)\n\t\t\t\t0a\n\t\t\tHash Algorithm: SHA2-384 (hash 9)\n\t\t\t\t09\n\t\t\tHash Algorithm: SHA2-256 (hash 8)\n\t\t\t\t08\n\t\t\tHash Algorithm: SHA2-224 (hash 11)\n\t\t\t\t0b\n\t\t\tHash Algorithm: SHA-1 (hash 2)\n\t\t\t\t02\n\t\tPreferred Compression Algorithms (sub 22) (3 bytes)\n\t\t\t02 03 01\n\t\t\tCompression Algorithm: ZLIB <RFC1950> (comp 2)\n\t\t\t\t02\n\t\t\tCompression Algorithm: BZip2 (comp 3)\n\t\t\t\t03\n\t\t\tCompression Algorithm: ZIP <RFC1951> (comp 1)\n\t\t\t\t01\n\t\tFeatures (sub 30) (1 bytes)\n\t\t\t07\n\t\t\tFlag: Modification Detection (packets 18 and 19)\n\t\t\tFlag: AEAD Encrypted Data Packet (packet 20) and version 5 Symmetric-Key Encrypted Session Key Packets (packet 3)\n\t\t\tFlag: Version 5 Public-Key Packet format and corresponding new fingerprint format\n\t\tKey Server Preferences (sub 23) (1 bytes)\n\t\t\t80\n\t\t\tFlag: No-modify\n\tHash left 2 bytes\n\t\tf5 c0\n\tEC point r (254 bits)\n\t\t38 91 df 23 2c 64 c7 84 43 8d 2e ea ec c4 a1 76 ba 51 77 95 fd 2d f0 c0 90 17 44 9c bd 33 cb 34\n\tEdDSA value s in the little endian representation (255 bits)\n\t\t6f b8 bf fb 03 24 df 15 7c 30 cd 28 c3 9d 89 b3 4b 4a 80 85 b2 c3 43 ae 37 37 e3 17 18 12 76 05\n" 
-- tag02_test.go
#guard runTest 2 [4, 16, 22, 8, 0, 52, 22, 33, 4, 59, 204, 199, 207, 210, 89, 126, 83, 68, 221, 150, 74, 114, 155, 82, 61, 17, 243, 168, 215, 5, 2, 94, 240, 16, 18, 22, 20, 128, 0, 0, 0, 0, 13, 0, 0, 114, 101, 109, 64, 103, 110, 117, 112, 103, 46, 111, 114, 103, 0, 10, 9, 16, 114, 155, 82, 61, 17, 243, 168, 215, 177, 21, 1, 0, 223, 1, 66, 240, 243, 125, 140, 236, 133, 37, 169, 52, 235, 243, 150, 166, 86, 105, 64, 35, 47, 4, 64, 74, 38, 95, 161, 37, 150, 11, 53, 210, 1, 0, 241, 25, 107, 45, 52, 224, 191, 199, 15, 64, 128, 232, 239, 37, 245, 233, 144, 200, 48, 160, 149, 137, 19, 203, 96, 8, 207, 58, 94, 22, 240, 1] (some [91, 26, 78, 29]) .notSpecified "Signature Packet (tag 2) (140 bytes)\n\t04 10 16 08 00 34 16 21 04 3b cc c7 cf d2 59 7e 53 44 dd 96 4a 72 9b 52 3d 11 f3 a8 d7 05 02 5e f0 10 12 16 14 80 00 00 00 00 0d 00 00 72 65 6d 40 67 6e 75 70 67 2e 6f 72 67 00 0a 09 10 72 9b 52 3d 11 f3 a8 d7 b1 15 01 00 df 01 42 f0 f3 7d 8c ec 85 25 a9 34 eb f3 96 a6 56 69 40 23 2f 04 40 4a 26 5f a1 25 96 0b 35 d2 01 00 f1 19 6b 2d 34 e0 bf c7 0f 40 80 e8 ef 25 f5 e9 90 c8 30 a0 95 89 13 cb 60 08 cf 3a 5e 16 f0 01\n\tVersion: 4 (current)\n\t\t04\n\tSigniture Type: Generic certification of a User ID and Public-Key packet (0x10)\n\t\t10\n\tPublic-key Algorithm: EdDSA (pub 22)\n\t\t16\n\tHash Algorithm: SHA2-256 (hash 8)\n\t\t08\n\tHashed Subpacket (52 bytes)\n\t\t16 21 04 3b cc c7 cf d2 59 7e 53 44 dd 96 4a 72 9b 52 3d 11 f3 a8 d7 05 02 5e f0 10 12 16 14 80 00 00 00 00 0d 00 00 72 65 6d 40 67 6e 75 70 67 2e 6f 72 67\n\t\tIssuer Fingerprint (sub 33) (21 bytes)\n\t\t\t04 3b cc c7 cf d2 59 7e 53 44 dd 96 4a 72 9b 52 3d 11 f3 a8 d7\n\t\t\tVersion: 4 (need 20 octets length)\n\t\t\tFingerprint (20 bytes)\n\t\t\t\t3b cc c7 cf d2 59 7e 53 44 dd 96 4a 72 9b 52 3d 11 f3 a8 d7\n\t\tSignature Creation Time (sub 2): 2020-06-22T01:57:38Z\n\t\t\t5e f0 10 12\n\t\tNotation Data (sub 20) (21 bytes)\n\t\t\t80 00 00 00 00 0d 00 00 72 65 6d 40 67 6e 75 70 67 2e 6f 72 67\n\t\t\tFlag: Human-readable\n\t\t\tName: rem@gnupg.org\n\t\t\t\t72 65 6d 40 67 6e 75 70 67 2e 6f 72 67\n\t\t\tValue (0 byte)\n\tUnhashed Subpacket (10 bytes)\n\t\t09 10 72 9b 52 3d 11 f3 a8 d7\n\t\tIssuer (sub 16): 0x729b523d11f3a8d7\n\tHash left 2 bytes\n\t\tb1 15\n\tEC point r (256 bits)\n\t\tdf 01 42 f0 f3 7d 8c ec 85 25 a9 34 eb f3 96 a6 56 69 40 23 2f 04 40 4a 26 5f a1 25 96 0b 35 d2\n\tEdDSA value s in the little endian representation (256 bits)\n\t\tf1 19 6b 2d 34 e0 bf c7 0f 40 80 e8 ef 25 f5 e9 90 c8 30 a0 95 89 13 cb 60 08 cf 3a 5e 16 f0 01\n" 
-- tag03_test.go
#guard runTest 3 [4, 3, 0, 1] none .symEnc "Symmetric-Key Encrypted Session Key Packet (tag 3) (4 bytes)\n\t04 03 00 01\n\tVersion: 4 (current)\n\t\t04\n\tSymmetric Algorithm: CAST5 (128 bit key, as per) (sym 3)\n\t\t03\n\tString-to-Key (S2K) Algorithm: Simple S2K (s2k 0)\n\t\t00\n\t\tHash Algorithm: MD5 (hash 1)\n\t\t\t01\n" 
-- tag03_test.go
#guard runTest 3 [4, 4, 1, 3, 171, 43, 176, 135, 180, 29, 67, 72] none .symEnc "Symmetric-Key Encrypted Session Key Packet (tag 3) (12 bytes)\n\t04 04 01 03 ab 2b b0 87 b4 1d 43 48\n\tVersion: 4 (current)\n\t\t04\n\tSymmetric Algorithm: Blowfish (128 bit key, 16 rounds) (sym 4)\n\t\t04\n\tString-to-Key (S2K) Algorithm: Salted S2K (s2k 1)\n\t\t01\n\t\tHash Algorithm: RIPE-MD/160 (hash 3)\n\t\t\t03\n\t\tSalt\n\t\t\tab 2b b0 87 b4 1d 43 48\n" 
-- tag04_test.go
#guard runTest 4 [3, 0, 8, 17, 180, 218, 59, 174, 126, 32, 184, 28, 1] none .notSpecified "One-Pass Signature Packet (tag 4) (13 bytes)\n\t03 00 08 11 b4 da 3b ae 7e 20 b8 1c 01\n\tVersion: 3 (current)\n\t\t03\n\tSigniture Type: Signature of a binary document (0x00)\n\t\t00\n\tHash Algorithm: SHA2-256 (hash 8)\n\t\t08\n\tPublic-key Algorithm: DSA (Digital Signature Algorithm) (pub 17)\n\t\t11\n\tKey ID: 0xb4da3bae7e20b81c\n\tEncrypted session key: other than one pass signature (flag 0x01)\n" 
-- tag05_test.go
#guard runTest 5 [4, 90, 250, 133, 101, 1, 8, 0, 138, 248, 72, 228, 194, 33, 35, 196, 71, 233, 132, 19, 77, 128, 136, 173, 40, 158, 52, 50, 235, 178, 83, 158, 210, 179, 100, 196, 244, 233, 247, 192, 93, 138, 230, 1, 225, 79, 4, 43, 242, 8, 56, 193, 77, 101, 73, 59, 37, 34, 241, 191, 24, 13, 49, 99, 158, 213, 4, 207, 76, 153, 87, 225, 168, 46, 160, 203, 63, 172, 37, 0, 133, 0, 61, 170, 97, 226, 186, 229, 227, 240, 31, 242, 54, 154, 151, 18, 123, 11, 145, 176, 194, 153, 180, 90, 106, 58, 64, 236, 118, 118, 168, 25, 77, 139, 237, 224, 181, 31, 179, 239, 101, 250, 85, 46, 242, 166, 212, 45, 122, 118, 217, 122, 58, 62, 233, 57, 211, 32, 176, 59, 125, 200, 187, 255, 160, 200, 136, 130, 235, 207, 117, 244, 172, 7, 65, 118, 246, 102, 251, 36, 135, 0, 142, 148, 115, 215, 44, 62, 152, 254, 70, 160, 46, 117, 63, 209, 235, 53, 141, 241, 123, 159, 7, 180, 129, 228, 221, 86, 49, 31, 183, 190, 189, 242, 216, 100, 168, 78, 184, 161, 77, 86, 88, 116, 188, 56, 186, 118, 185, 35, 88, 80, 73, 74, 206, 181, 118, 107, 21, 64, 187, 191, 39, 3, 245, 80, 9, 187, 7, 35, 35, 46, 85, 7, 81, 145, 160, 238, 254, 245, 177, 116, 81, 188, 127, 120, 81, 18, 139, 222, 113, 34, 106, 11, 28, 182, 51, 95, 114, 175, 235, 38, 176, 139, 0, 17, 1, 0, 1, 0, 7, 251, 7, 51, 215, 201, 154, 214, 106, 184, 200, 161, 164, 121, 174, 53, 32, 178, 153, 93, 211, 107, 47, 88, 200, 164, 216, 146, 11, 202, 158, 80, 92, 146, 232, 211, 240, 189, 29, 52, 244, 104, 9, 207, 125, 180, 102, 124, 72, 8, 219, 163, 132, 93, 75, 42, 229, 151, 158, 138, 219, 173, 80, 204, 20, 236, 222, 195, 206, 194, 160, 212, 29, 108, 66, 248, 105, 185, 198, 37, 33, 17, 168, 184, 39, 55, 182, 110, 16, 140, 207, 112, 123, 253, 87, 165, 54, 186, 24, 13, 198, 184, 90, 179, 38, 93, 236, 54, 121, 227, 19, 89, 62, 55, 205, 203, 119, 112, 157, 138, 198, 247, 35, 151, 59, 191, 219, 196, 134, 132, 3, 129, 127, 240, 84, 255, 146, 125, 155, 136, 155, 159, 40, 139, 205, 133, 118, 166, 219, 82, 156, 143, 51, 158, 52, 121, 111, 221, 153, 46, 61, 202, 118, 116, 9, 113, 103, 126, 188, 81, 159, 107, 37, 72, 104, 125, 61, 168, 139, 254, 146, 66, 159, 196, 147, 198, 118, 194, 183, 217, 194, 117, 209, 173, 228, 40, 54, 38, 21, 184, 161, 77, 77, 171, 229, 241, 128, 65, 130, 86, 228, 156, 116, 46, 238, 191, 186, 139, 238, 178, 5, 162, 185, 8, 47, 143, 254, 174, 100, 142, 3, 109, 196, 121, 123, 227, 225, 51, 91, 28, 113, 14, 206, 109, 162, 146, 65, 182, 222, 253, 26, 93, 72, 60, 25, 20, 88, 73, 4, 0, 182, 149, 255, 25, 13, 121, 215, 114, 208, 81, 228, 135, 8, 255, 206, 3, 54, 155, 5, 181, 43, 244, 99, 170, 240, 120, 224, 125, 195, 208, 194, 229, 97, 136, 54, 34, 48, 109, 228, 155, 249, 128, 112, 216, 210, 164, 244, 143, 215, 59, 229, 105, 239, 233, 97, 80, 141, 54, 239, 119, 132, 255, 169, 146, 131, 177, 216, 101, 79, 75, 98, 180, 52, 3, 196, 75, 129, 186, 163, 55, 226, 184, 6, 207, 64, 139, 122, 75, 3, 215, 250, 172, 188, 115, 96, 141, 28, 50, 229, 88, 65, 134, 126, 94, 31, 14, 61, 83, 66, 240, 47, 126, 40, 154, 118, 64, 216, 106, 100, 118, 87, 105, 254, 100, 104, 49, 112, 121, 4, 0, 194, 216, 200, 133, 176, 10, 27, 234, 142, 6, 167, 26, 56, 77, 180, 111, 46, 144, 32, 125, 251, 242, 79, 213, 91, 191, 124, 129, 21, 60, 75, 250, 33, 176, 195, 70, 177, 79, 37, 232, 175, 46, 13, 224, 235, 177, 150, 6, 163, 12, 183, 53, 170, 189, 109, 85, 127, 196, 7, 208, 29, 31, 103, 149, 115, 134, 186, 103, 204, 173, 106, 243, 151, 161, 246, 101, 250, 170, 235, 36, 217, 178, 48, 99, 163, 220, 158, 47, 137, 246, 233, 82, 32, 127, 114, 130, 154, 159, 160, 29, 246, 24, 225, 251, 72, 171, 243, 70, 52, 75, 78, 138, 49, 72, 211, 61, 116, 49, 48, 248, 99, 124, 71, 247, 60, 146, 208, 35, 3, 254, 42, 227, 171, 49, 116, 19, 81, 196, 192, 94, 181, 236, 172, 60, 204, 198, 199, 106, 140, 227, 177, 129, 6, 197, 155, 210, 38, 220, 12, 222, 103, 110, 203, 16, 13, 1, 35, 145, 44, 104, 144, 113, 154, 61, 183, 196, 210, 100, 24, 181, 97, 209, 119, 10, 213, 78, 218, 203, 87, 101, 143, 183, 172, 61, 90, 65, 100, 135, 197, 184, 77, 134, 17, 157, 175, 192, 151, 103, 158, 214, 171, 126, 183, 194, 46, 30, 167, 21, 99, 231, 47, 131, 19, 207, 150, 217, 20, 237, 29, 69, 164, 70, 131, 13, 71, 179, 26, 180, 239, 69, 187, 167, 243, 174, 18, 111, 64, 170, 253, 210, 104, 128, 200, 219, 96, 137, 182, 134, 127, 42, 144, 26, 35, 145, 210, 18, 178, 101, 72, 246, 168, 238, 30, 130, 193, 129, 93, 82] none .notSpecified "Secret-Key Packet (tag 5) (938 bytes)\n\t04 5a fa 85 65 01 08 00 8a f8 48 e4 c2 21 23 c4 47 e9 84 13 4d 80 88 ad 28 9e 34 32 eb b2 53 9e d2 b3 64 c4 f4 e9 f7 c0 5d 8a e6 01 e1 4f 04 2b f2 08 38 c1 4d 65 49 3b 25 22 f1 bf 18 0d 31 63 9e d5 04 cf 4c 99 57 e1 a8 2e a0 cb 3f ac 25 00 85 00 3d aa 61 e2 ba e5 e3 f0 1f f2 36 9a 97 12 7b 0b 91 b0 c2 99 b4 5a 6a 3a 40 ec 76 76 a8 19 4d 8b ed e0 b5 1f b3 ef 65 fa 55 2e f2 a6 d4 2d 7a 76 d9 7a 3a 3e e9 39 d3 20 b0 3b 7d c8 bb ff a0 c8 88 82 eb cf 75 f4 ac 07 41 76 f6 66 fb 24 87 00 8e 94 73 d7 2c 3e 98 fe 46 a0 2e 75 3f d1 eb 35 8d f1 7b 9f 07 b4 81 e4 dd 56 31 1f b7 be bd f2 d8 64 a8 4e b8 a1 4d 56 58 74 bc 38 ba 76 b9 23 58 50 49 4a ce b5 76 6b 15 40 bb bf 27 03 f5 50 09 bb 07 23 23 2e 55 07 51 91 a0 ee fe f5 b1 74 51 bc 7f 78 51 12 8b de 71 22 6a 0b 1c b6 33 5f 72 af eb 26 b0 8b 00 11 01 00 01 00 07 fb 07 33 d7 c9 9a d6 6a b8 c8 a1 a4 79 ae 35 20 b2 99 5d d3 6b 2f 58 c8 a4 d8 92 0b ca 9e 50 5c 92 e8 d3 f0 bd 1d 34 f4 68 09 cf 7d b4 66 7c 48 08 db a3 84 5d 4b 2a e5 97 9e 8a db ad 50 cc 14 ec de c3 ce c2 a0 d4 1d 6c 42 f8 69 b9 c6 25 21 11 a8 b8 27 37 b6 6e 10 8c cf 70 7b fd 57 a5 36 ba 18 0d c6 b8 5a b3 26 5d ec 36 79 e3 13 59 3e 37 cd cb 77 70 9d 8a c6 f7 23 97 3b bf db c4 86 84 03 81 7f f0 54 ff 92 7d 9b 88 9b 9f 28 8b cd 85 76 a6 db 52 9c 8f 33 9e 34 79 6f dd 99 2e 3d ca 76 74 09 71 67 7e bc 51 9f 6b 25 48 68 7d 3d a8 8b fe 92 42 9f c4 93 c6 76 c2 b7 d9 c2 75 d1 ad e4 28 36 26 15 b8 a1 4d 4d ab e5 f1 80 41 82 56 e4 9c 74 2e ee bf ba 8b ee b2 05 a2 b9 08 2f 8f fe ae 64 8e 03 6d c4 79 7b e3 e1 33 5b 1c 71 0e ce 6d a2 92 41 b6 de fd 1a 5d 48 3c 19 14 58 49 04 00 b6 95 ff 19 0d 79 d7 72 d0 51 e4 87 08 ff ce 03 36 9b 05 b5 2b f4 63 aa f0 78 e0 7d c3 d0 c2 e5 61 88 36 22 30 6d e4 9b f9 80 70 d8 d2 a4 f4 8f d7 3b e5 69 ef e9 61 50 8d 36 ef 77 84 ff a9 92 83 b1 d8 65 4f 4b 62 b4 34 03 c4 4b 81 ba a3 37 e2 b8 06 cf 40 8b 7a 4b 03 d7 fa ac bc 73 60 8d 1c 32 e5 58 41 86 7e 5e 1f 0e 3d 53 42 f0 2f 7e 28 9a 76 40 d8 6a 64 76 57 69 fe 64 68 31 70 79 04 00 c2 d8 c8 85 b0 0a 1b ea 8e 06 a7 1a 38 4d b4 6f 2e 90 20 7d fb f2 4f d5 5b bf 7c 81 15 3c 4b fa 21 b0 c3 46 b1 4f 25 e8 af 2e 0d e0 eb b1 96 06 a3 0c b7 35 aa bd 6d 55 7f c4 07 d0 1d 1f 67 95 73 86 ba 67 cc ad 6a f3 97 a1 f6 65 fa aa eb 24 d9 b2 30 63 a3 dc 9e 2f 89 f6 e9 52 20 7f 72 82 9a 9f a0 1d f6 18 e1 fb 48 ab f3 46 34 4b 4e 8a 31 48 d3 3d 74 31 30 f8 63 7c 47 f7 3c 92 d0 23 03 fe 2a e3 ab 31 74 13 51 c4 c0 5e b5 ec ac 3c cc c6 c7 6a 8c e3 b1 81 06 c5 9b d2 26 dc 0c de 67 6e cb 10 0d 01 23 91 2c 68 90 71 9a 3d b7 c4 d2 64 18 b5 61 d1 77 0a d5 4e da cb 57 65 8f b7 ac 3d 5a 41 64 87 c5 b8 4d 86 11 9d af c0 97 67 9e d6 ab 7e b7 c2 2e 1e a7 15 63 e7 2f 83 13 cf 96 d9 14 ed 1d 45 a4 46 83 0d 47 b3 1a b4 ef 45 bb a7 f3 ae 12 6f 40 aa fd d2 68 80 c8 db 60 89 b6 86 7f 2a 90 1a 23 91 d2 12 b2 65 48 f6 a8 ee 1e 82 c1 81 5d 52\n\tVersion: 4 (current)\n\t\t04\n\tPublic-Key\n\t\tPublic key creation time: 2018-05-15T06:59:49Z\n\t\t\t5a fa 85 65\n\t\tPublic-key Algorithm: RSA (Encrypt or Sign) (pub 1)\n\t\t\t01\n\t\tRSA public modulus n (2048 bits)\n\t\t\t8a f8 48 e4 c2 21 23 c4 47 e9 84 13 4d 80 88 ad 28 9e 34 32 eb b2 53 9e d2 b3 64 c4 f4 e9 f7 c0 5d 8a e6 01 e1 4f 04 2b f2 08 38 c1 4d 65 49 3b 25 22 f1 bf 18 0d 31 63 9e d5 04 cf 4c 99 57 e1 a8 2e a0 cb 3f ac 25 00 85 00 3d aa 61 e2 ba e5 e3 f0 1f f2 36 9a 97 12 7b 0b 91 b0 c2 99 b4 5a 6a 3a 40 ec 76 76 a8 19 4d 8b ed e0 b5 1f b3 ef 65 fa 55 2e f2 a6 d4 2d 7a 76 d9 7a 3a 3e e9 39 d3 20 b0 3b 7d c8 bb ff a0 c8 88 82 eb cf 75 f4 ac 07 41 76 f6 66 fb 24 87 00 8e 94 73 d7 2c 3e 98 fe 46 a0 2e 75 3f d1 eb 35 8d f1 7b 9f 07 b4 81 e4 dd 56 31 1f b7 be bd f2 d8 64 a8 4e b8 a1 4d 56 58 74 bc 38 ba 76 b9 23 58 50 49 4a ce b5 76 6b 15 40 bb bf 27 03 f5 50 09 bb 07 23 23 2e 55 07 51 91 a0 ee fe f5 b1 74 51 bc 7f 78 51 12 8b de 71 22 6a 0b 1c b6 33 5f 72 af eb 26 b0 8b\n\t\tRSA public encryption exponent e (17 bits)\n\t\t\t01 00 01\n\tSecret-Key (s2k usage 0; plain secret-key material)\n\t\tRSA secret exponent d (2043 bits)\n\t\t\t07 33 d7 c9 9a d6 6a b8 c8 a1 a4 79 ae 35 20 b2 99 5d d3 6b 2f 58 c8 a4 d8 92 0b ca 9e 50 5c 92 e8 d3 f0 bd 1d 34 f4 68 09 cf 7d b4 66 7c 48 08 db a3 84 5d 4b 2a e5 97 9e 8a db ad 50 cc 14 ec de c3 ce c2 a0 d4 1d 6c 42 f8 69 b9 c6 25 21 11 a8 b8 27 37 b6 6e 10 8c cf 70 7b fd 57 a5 36 ba 18 0d c6 b8 5a b3 26 5d ec 36 79 e3 13 59 3e 37 cd cb 77 70 9d 8a c6 f7 23 97 3b bf db c4 86 84 03 81 7f f0 54 ff 92 7d 9b 88 9b 9f 28 8b cd 85 76 a6 db 52 9c 8f 33 9e 34 79 6f dd 99 2e 3d ca 76 74 09 71 67 7e bc 51 9f 6b 25 48 68 7d 3d a8 8b fe 92 42 9f c4 93 c6 76 c2 b7 d9 c2 75 d1 ad e4 28 36 26 15 b8 a1 4d 4d ab e5 f1 80 41 82 56 e4 9c 74 2e ee bf ba 8b ee b2 05 a2 b9 08 2f 8f fe ae 64 8e 03 6d c4 79 7b e3 e1 33 5b 1c 71 0e ce 6d a2 92 41 b6 de fd 1a 5d 48 3c 19 14 58 49\n\t\tRSA secret prime value p (1024 bits)\n\t\t\tb6 95 ff 19 0d 79 d7 72 d0 51 e4 87 08 ff ce 03 36 9b 05 b5 2b f4 63 aa f0 78 e0 7d c3 d0 c2 e5 61 88 36 22 30 6d e4 9b f9 80 70 d8 d2 a4 f4 8f d7 3b e5 69 ef e9 61 50 8d 36 ef 77 84 ff a9 92 83 b1 d8 65 4f 4b 62 b4 34 03 c4 4b 81 ba a3 37 e2 b8 06 cf 40 8b 7a 4b 03 d7 fa ac bc 73 60 8d 1c 32 e5 58 41 86 7e 5e 1f 0e 3d 53 42 f0 2f 7e 28 9a 76 40 d8 6a 64 76 57 69 fe 64 68 31 70 79\n\t\tRSA secret prime value q (p < q) (1024 bits)\n\t\t\tc2 d8 c8 85 b0 0a 1b ea 8e 06 a7 1a 38 4d b4 6f 2e 90 20 7d fb f2 4f d5 5b bf 7c 81 15 3c 4b fa 21 b0 c3 46 b1 4f 25 e8 af 2e 0d e0 eb b1 96 06 a3 0c b7 35 aa bd 6d 55 7f c4 07 d0 1d 1f 67 95 73 86 ba 67 cc ad 6a f3 97 a1 f6 65 fa aa eb 24 d9 b2 30 63 a3 dc 9e 2f 89 f6 e9 52 20 7f 72 82 9a 9f a0 1d f6 18 e1 fb 48 ab f3 46 34 4b 4e 8a 31 48 d3 3d 74 31 30 f8 63 7c 47 f7 3c 92 d0 23\n\t\tRSA u, the multiplicative inverse of p, mod q (1022 bits)\n\t\t\t2a e3 ab 31 74 13 51 c4 c0 5e b5 ec ac 3c cc c6 c7 6a 8c e3 b1 81 06 c5 9b d2 26 dc 0c de 67 6e cb 10 0d 01 23 91 2c 68 90 71 9a 3d b7 c4 d2 64 18 b5 61 d1 77 0a d5 4e da cb 57 65 8f b7 ac 3d 5a 41 64 87 c5 b8 4d 86 11 9d af c0 97 67 9e d6 ab 7e b7 c2 2e 1e a7 15 63 e7 2f 83 13 cf 96 d9 14 ed 1d 45 a4 46 83 0d 47 b3 1a b4 ef 45 bb a7 f3 ae 12 6f 40 aa fd d2 68 80 c8 db 60 89 b6 86\n\t\t2-octet checksum\n\t\t\t7f 2a\n\tUnknown data (18 bytes)\n\t\t90 1a 23 91 d2 12 b2 65 48 f6 a8 ee 1e 82 c1 81 5d 52\n" 
-- tag05_test.go
#guard runTest 5 [4, 90, 252, 158, 112, 1, 8, 0, 192, 158, 109, 26, 186, 239, 171, 168, 18, 251, 29, 208, 15, 163, 229, 138, 124, 190, 59, 132, 115, 115, 7, 167, 66, 223, 132, 139, 89, 45, 84, 26, 51, 209, 61, 1, 248, 34, 167, 250, 255, 123, 42, 35, 101, 233, 192, 147, 180, 202, 59, 53, 203, 117, 138, 161, 182, 245, 37, 10, 92, 117, 243, 53, 217, 110, 14, 235, 217, 56, 204, 174, 69, 80, 198, 1, 64, 52, 206, 143, 130, 201, 65, 226, 223, 197, 59, 73, 7, 219, 19, 30, 52, 131, 48, 220, 209, 151, 235, 7, 239, 187, 2, 155, 70, 227, 167, 35, 3, 173, 28, 184, 1, 167, 159, 63, 75, 72, 152, 49, 161, 185, 210, 148, 206, 137, 53, 179, 1, 133, 63, 215, 13, 113, 101, 107, 8, 103, 131, 45, 142, 59, 206, 44, 63, 140, 8, 138, 179, 161, 151, 232, 51, 222, 37, 155, 30, 117, 144, 248, 164, 238, 239, 141, 62, 219, 141, 167, 111, 16, 246, 131, 125, 216, 14, 248, 183, 55, 128, 80, 197, 177, 130, 238, 250, 213, 96, 32, 198, 184, 63, 1, 240, 109, 29, 204, 59, 219, 227, 187, 50, 48, 64, 211, 232, 230, 229, 47, 4, 103, 19, 3, 170, 33, 129, 111, 135, 114, 153, 95, 143, 87, 148, 34, 212, 162, 151, 51, 71, 34, 175, 55, 221, 103, 7, 150, 251, 62, 55, 202, 149, 34, 156, 70, 46, 209, 103, 145, 241, 214, 245, 20, 137, 87, 161, 251, 0, 17, 1, 0, 1, 0, 7, 254, 37, 222, 192, 10, 178, 88, 46, 194, 163, 192, 181, 114, 211, 176, 96, 143, 226, 200, 176, 0, 241, 133, 219, 42, 90, 110, 129, 171, 184, 3, 190, 118, 76, 91, 198, 7, 222, 22, 74, 58, 130, 2, 96, 29, 135, 138, 246, 174, 211, 171, 179, 10, 119, 143, 11, 139, 145, 226, 14, 191, 67, 192, 120, 233, 204, 110, 228, 6, 32, 182, 23, 31, 232, 70, 226, 55, 26, 189, 135, 35, 22, 14, 165, 162, 138, 102, 71, 170, 171, 29, 186, 91, 132, 237, 138, 44, 208, 20, 115, 68, 35, 48, 252, 105, 52, 253, 203, 61, 138, 26, 125, 251, 251, 111, 78, 82, 238, 101, 62, 110, 251, 162, 2, 49, 249, 141, 102, 126, 12, 118, 159, 127, 98, 191, 83, 105, 109, 246, 146, 190, 220, 81, 150, 203, 140, 132, 137, 126, 184, 68, 133, 96, 197, 238, 163, 14, 18, 164, 150, 119, 219, 153, 72, 164, 212, 64, 250, 213, 52, 118, 223, 101, 40, 74, 36, 249, 62, 82, 237, 227, 12, 54, 29, 62, 14, 200, 140, 231, 29, 23, 162, 186, 9, 72, 242, 19, 52, 76, 17, 21, 76, 73, 49, 131, 53, 164, 154, 17, 2, 29, 191, 44, 193, 211, 16, 171, 196, 205, 190, 234, 167, 113, 157, 112, 62, 235, 14, 17, 82, 29, 24, 101, 71, 218, 119, 50, 117, 58, 23, 124, 132, 211, 156, 201, 123, 232, 145, 177, 191, 103, 19, 12, 23, 219, 85, 177, 4, 0, 200, 110, 232, 163, 171, 70, 110, 75, 139, 162, 183, 219, 52, 248, 14, 216, 62, 186, 181, 248, 210, 8, 214, 192, 83, 224, 249, 219, 202, 132, 166, 242, 174, 229, 77, 72, 115, 247, 227, 11, 180, 35, 195, 177, 173, 240, 9, 90, 252, 229, 29, 252, 99, 235, 175, 113, 198, 73, 173, 97, 61, 50, 150, 101, 137, 78, 206, 250, 18, 127, 215, 14, 130, 237, 240, 251, 142, 159, 84, 92, 216, 68, 213, 38, 116, 158, 114, 52, 178, 62, 244, 189, 126, 56, 15, 254, 2, 237, 47, 39, 111, 235, 188, 25, 186, 201, 241, 158, 129, 176, 36, 41, 63, 12, 115, 157, 186, 38, 73, 52, 6, 187, 169, 115, 109, 29, 152, 83, 4, 0, 246, 4, 234, 199, 208, 26, 130, 235, 103, 222, 18, 122, 255, 90, 75, 157, 33, 158, 61, 210, 142, 118, 196, 109, 155, 14, 249, 17, 216, 145, 48, 7, 140, 152, 82, 76, 42, 102, 30, 80, 245, 243, 249, 239, 204, 159, 66, 134, 30, 95, 187, 51, 46, 49, 42, 13, 2, 129, 126, 6, 104, 27, 231, 143, 58, 228, 118, 253, 190, 164, 143, 117, 113, 173, 154, 123, 63, 113, 9, 63, 194, 209, 105, 159, 153, 34, 74, 204, 45, 154, 185, 99, 35, 55, 178, 173, 118, 242, 1, 26, 51, 161, 242, 238, 114, 104, 167, 42, 253, 170, 172, 42, 66, 192, 152, 65, 73, 116, 79, 126, 138, 49, 153, 43, 202, 143, 122, 185, 3, 255, 82, 34, 137, 82, 152, 28, 245, 213, 116, 150, 119, 28, 197, 67, 83, 126, 43, 79, 55, 221, 48, 85, 221, 38, 206, 254, 43, 101, 119, 38, 30, 77, 210, 218, 203, 65, 27, 34, 185, 178, 124, 63, 42, 217, 28, 197, 234, 173, 182, 174, 214, 5, 98, 71, 13, 226, 27, 35, 75, 189, 235, 132, 202, 109, 219, 9, 81, 176, 49, 118, 107, 70, 216, 253, 204, 203, 142, 64, 96, 31, 203, 82, 97, 205, 211, 125, 218, 109, 98, 45, 105, 104, 55, 93, 194, 142, 185, 112, 229, 88, 182, 101, 29, 110, 147, 32, 80, 117, 43, 198, 136, 75, 35, 66, 190, 47, 68, 198, 209, 213, 154, 189, 39, 91, 1, 46, 63, 242, 61, 12] none .notSpecified "Secret-Key Packet (tag 5) (920 bytes)\n\t04 5a fc 9e 70 01 08 00 c0 9e 6d 1a ba ef ab a8 12 fb 1d d0 0f a3 e5 8a 7c be 3b 84 73 73 07 a7 42 df 84 8b 59 2d 54 1a 33 d1 3d 01 f8 22 a7 fa ff 7b 2a 23 65 e9 c0 93 b4 ca 3b 35 cb 75 8a a1 b6 f5 25 0a 5c 75 f3 35 d9 6e 0e eb d9 38 cc ae 45 50 c6 01 40 34 ce 8f 82 c9 41 e2 df c5 3b 49 07 db 13 1e 34 83 30 dc d1 97 eb 07 ef bb 02 9b 46 e3 a7 23 03 ad 1c b8 01 a7 9f 3f 4b 48 98 31 a1 b9 d2 94 ce 89 35 b3 01 85 3f d7 0d 71 65 6b 08 67 83 2d 8e 3b ce 2c 3f 8c 08 8a b3 a1 97 e8 33 de 25 9b 1e 75 90 f8 a4 ee ef 8d 3e db 8d a7 6f 10 f6 83 7d d8 0e f8 b7 37 80 50 c5 b1 82 ee fa d5 60 20 c6 b8 3f 01 f0 6d 1d cc 3b db e3 bb 32 30 40 d3 e8 e6 e5 2f 04 67 13 03 aa 21 81 6f 87 72 99 5f 8f 57 94 22 d4 a2 97 33 47 22 af 37 dd 67 07 96 fb 3e 37 ca 95 22 9c 46 2e d1 67 91 f1 d6 f5 14 89 57 a1 fb 00 11 01 00 01 00 07 fe 25 de c0 0a b2 58 2e c2 a3 c0 b5 72 d3 b0 60 8f e2 c8 b0 00 f1 85 db 2a 5a 6e 81 ab b8 03 be 76 4c 5b c6 07 de 16 4a 3a 82 02 60 1d 87 8a f6 ae d3 ab b3 0a 77 8f 0b 8b 91 e2 0e bf 43 c0 78 e9 cc 6e e4 06 20 b6 17 1f e8 46 e2 37 1a bd 87 23 16 0e a5 a2 8a 66 47 aa ab 1d ba 5b 84 ed 8a 2c d0 14 73 44 23 30 fc 69 34 fd cb 3d 8a 1a 7d fb fb 6f 4e 52 ee 65 3e 6e fb a2 02 31 f9 8d 66 7e 0c 76 9f 7f 62 bf 53 69 6d f6 92 be dc 51 96 cb 8c 84 89 7e b8 44 85 60 c5 ee a3 0e 12 a4 96 77 db 99 48 a4 d4 40 fa d5 34 76 df 65 28 4a 24 f9 3e 52 ed e3 0c 36 1d 3e 0e c8 8c e7 1d 17 a2 ba 09 48 f2 13 34 4c 11 15 4c 49 31 83 35 a4 9a 11 02 1d bf 2c c1 d3 10 ab c4 cd be ea a7 71 9d 70 3e eb 0e 11 52 1d 18 65 47 da 77 32 75 3a 17 7c 84 d3 9c c9 7b e8 91 b1 bf 67 13 0c 17 db 55 b1 04 00 c8 6e e8 a3 ab 46 6e 4b 8b a2 b7 db 34 f8 0e d8 3e ba b5 f8 d2 08 d6 c0 53 e0 f9 db ca 84 a6 f2 ae e5 4d 48 73 f7 e3 0b b4 23 c3 b1 ad f0 09 5a fc e5 1d fc 63 eb af 71 c6 49 ad 61 3d 32 96 65 89 4e ce fa 12 7f d7 0e 82 ed f0 fb 8e 9f 54 5c d8 44 d5 26 74 9e 72 34 b2 3e f4 bd 7e 38 0f fe 02 ed 2f 27 6f eb bc 19 ba c9 f1 9e 81 b0 24 29 3f 0c 73 9d ba 26 49 34 06 bb a9 73 6d 1d 98 53 04 00 f6 04 ea c7 d0 1a 82 eb 67 de 12 7a ff 5a 4b 9d 21 9e 3d d2 8e 76 c4 6d 9b 0e f9 11 d8 91 30 07 8c 98 52 4c 2a 66 1e 50 f5 f3 f9 ef cc 9f 42 86 1e 5f bb 33 2e 31 2a 0d 02 81 7e 06 68 1b e7 8f 3a e4 76 fd be a4 8f 75 71 ad 9a 7b 3f 71 09 3f c2 d1 69 9f 99 22 4a cc 2d 9a b9 63 23 37 b2 ad 76 f2 01 1a 33 a1 f2 ee 72 68 a7 2a fd aa ac 2a 42 c0 98 41 49 74 4f 7e 8a 31 99 2b ca 8f 7a b9 03 ff 52 22 89 52 98 1c f5 d5 74 96 77 1c c5 43 53 7e 2b 4f 37 dd 30 55 dd 26 ce fe 2b 65 77 26 1e 4d d2 da cb 41 1b 22 b9 b2 7c 3f 2a d9 1c c5 ea ad b6 ae d6 05 62 47 0d e2 1b 23 4b bd eb 84 ca 6d db 09 51 b0 31 76 6b 46 d8 fd cc cb 8e 40 60 1f cb 52 61 cd d3 7d da 6d 62 2d 69 68 37 5d c2 8e b9 70 e5 58 b6 65 1d 6e 93 20 50 75 2b c6 88 4b 23 42 be 2f 44 c6 d1 d5 9a bd 27 5b 01 2e 3f f2 3d 0c\n\tVersion: 4 (current)\n\t\t04\n\tPublic-Key\n\t\tPublic key creation time: 2018-05-16T21:11:12Z\n\t\t\t5a fc 9e 70\n\t\tPublic-key Algorithm: RSA (Encrypt or Sign) (pub 1)\n\t\t\t01\n\t\tRSA public modulus n (2048 bits)\n\t\t\tc0 9e 6d 1a ba ef ab a8 12 fb 1d d0 0f a3 e5 8a 7c be 3b 84 73 73 07 a7 42 df 84 8b 59 2d 54 1a 33 d1 3d 01 f8 22 a7 fa ff 7b 2a 23 65 e9 c0 93 b4 ca 3b 35 cb 75 8a a1 b6 f5 25 0a 5c 75 f3 35 d9 6e 0e eb d9 38 cc ae 45 50 c6 01 40 34 ce 8f 82 c9 41 e2 df c5 3b 49 07 db 13 1e 34 83 30 dc d1 97 eb 07 ef bb 02 9b 46 e3 a7 23 03 ad 1c b8 01 a7 9f 3f 4b 48 98 31 a1 b9 d2 94 ce 89 35 b3 01 85 3f d7 0d 71 65 6b 08 67 83 2d 8e 3b ce 2c 3f 8c 08 8a b3 a1 97 e8 33 de 25 9b 1e 75 90 f8 a4 ee ef 8d 3e db 8d a7 6f 10 f6 83 7d d8 0e f8 b7 37 80 50 c5 b1 82 ee fa d5 60 20 c6 b8 3f 01 f0 6d 1d cc 3b db e3 bb 32 30 40 d3 e8 e6 e5 2f 04 67 13 03 aa 21 81 6f 87 72 99 5f 8f 57 94 22 d4 a2 97 33 47 22 af 37 dd 67 07 96 fb 3e 37 ca 95 22 9c 46 2e d1 67 91 f1 d6 f5 14 89 57 a1 fb\n\t\tRSA public encryption exponent e (17 bits)\n\t\t\t01 00 01\n\tSecret-Key (s2k usage 0; plain secret-key material)\n\t\tRSA secret exponent d (2046 bits)\n\t\t\t25 de c0 0a b2 58 2e c2 a3 c0 b5 72 d3 b0 60 8f e2 c8 b0 00 f1 85 db 2a 5a 6e 81 ab b8 03 be 76 4c 5b c6 07 de 16 4a 3a 82 02 60 1d 87 8a f6 ae d3 ab b3 0a 77 8f 0b 8b 91 e2 0e bf 43 c0 78 e9 cc 6e e4 06 20 b6 17 1f e8 46 e2 37 1a bd 87 23 16 0e a5 a2 8a 66 47 aa ab 1d ba 5b 84 ed 8a 2c d0 14 73 44 23 30 fc 69 34 fd cb 3d 8a 1a 7d fb fb 6f 4e 52 ee 65 3e 6e fb a2 02 31 f9 8d 66 7e 0c 76 9f 7f 62 bf 53 69 6d f6 92 be dc 51 96 cb 8c 84 89 7e b8 44 85 60 c5 ee a3 0e 12 a4 96 77 db 99 48 a4 d4 40 fa d5 34 76 df 65 28 4a 24 f9 3e 52 ed e3 0c 36 1d 3e 0e c8 8c e7 1d 17 a2 ba 09 48 f2 13 34 4c 11 15 4c 49 31 83 35 a4 9a 11 02 1d bf 2c c1 d3 10 ab c4 cd be ea a7 71 9d 70 3e eb 0e 11 52 1d 18 65 47 da 77 32 75 3a 17 7c 84 d3 9c c9 7b e8 91 b1 bf 67 13 0c 17 db 55 b1\n\t\tRSA secret prime value p (1024 bits)\n\t\t\tc8 6e e8 a3 ab 46 6e 4b 8b a2 b7 db 34 f8 0e d8 3e ba b5 f8 d2 08 d6 c0 53 e0 f9 db ca 84 a6 f2 ae e5 4d 48 73 f7 e3 0b b4 23 c3 b1 ad f0 09 5a fc e5 1d fc 63 eb af 71 c6 49 ad 61 3d 32 96 65 89 4e ce fa 12 7f d7 0e 82 ed f0 fb 8e 9f 54 5c d8 44 d5 26 74 9e 72 34 b2 3e f4 bd 7e 38 0f fe 02 ed 2f 27 6f eb bc 19 ba c9 f1 9e 81 b0 24 29 3f 0c 73 9d ba 26 49 34 06 bb a9 73 6d 1d 98 53\n\t\tRSA secret prime value q (p < q) (1024 bits)\n\t\t\tf6 04 ea c7 d0 1a 82 eb 67 de 12 7a ff 5a 4b 9d 21 9e 3d d2 8e 76 c4 6d 9b 0e f9 11 d8 91 30 07 8c 98 52 4c 2a 66 1e 50 f5 f3 f9 ef cc 9f 42 86 1e 5f bb 33 2e 31 2a 0d 02 81 7e 06 68 1b e7 8f 3a e4 76 fd be a4 8f 75 71 ad 9a 7b 3f 71 09 3f c2 d1 69 9f 99 22 4a cc 2d 9a b9 63 23 37 b2 ad 76 f2 01 1a 33 a1 f2 ee 72 68 a7 2a fd aa ac 2a 42 c0 98 41 49 74 4f 7e 8a 31 99 2b ca 8f 7a b9\n\t\tRSA u, the multiplicative inverse of p, mod q (1023 bits)\n\t\t\t52 22 89 52 98 1c f5 d5 74 96 77 1c c5 43 53 7e 2b 4f 37 dd 30 55 dd 26 ce fe 2b 65 77 26 1e 4d d2 da cb 41 1b 22 b9 b2 7c 3f 2a d9 1c c5 ea ad b6 ae d6 05 62 47 0d e2 1b 23 4b bd eb 84 ca 6d db 09 51 b0 31 76 6b 46 d8 fd cc cb 8e 40 60 1f cb 52 61 cd d3 7d da 6d 62 2d 69 68 37 5d c2 8e b9 70 e5 58 b6 65 1d 6e 93 20 50 75 2b c6 88 4b 23 42 be 2f 44 c6 d1 d5 9a bd 27 5b 01 2e 3f f2\n\t\t2-octet checksum\n\t\t\t3d 0c\n" 
-- tag05_test.go
#guard runTest 5 [4, 91, 26, 78, 29, 22, 9, 43, 6, 1, 4, 1, 218, 71, 15, 1, 1, 7, 64, 198, 174, 216, 86, 98, 52, 115, 231, 241, 134, 255, 95, 9, 221, 210, 194, 181, 72, 189, 120, 148, 144, 168, 210, 253, 156, 252, 198, 105, 21, 251, 134, 0, 0, 255, 80, 94, 204, 19, 49, 35, 89, 73, 194, 204, 72, 29, 124, 232, 57, 133, 172, 54, 47, 118, 255, 90, 229, 214, 9, 104, 198, 231, 222, 203, 0, 92, 16, 85] none .notSpecified "Secret-Key Packet (tag 5) (88 bytes)\n\t04 5b 1a 4e 1d 16 09 2b 06 01 04 01 da 47 0f 01 01 07 40 c6 ae d8 56 62 34 73 e7 f1 86 ff 5f 09 dd d2 c2 b5 48 bd 78 94 90 a8 d2 fd 9c fc c6 69 15 fb 86 00 00 ff 50 5e cc 13 31 23 59 49 c2 cc 48 1d 7c e8 39 85 ac 36 2f 76 ff 5a e5 d6 09 68 c6 e7 de cb 00 5c 10 55\n\tVersion: 4 (current)\n\t\t04\n\tPublic-Key\n\t\tPublic key creation time: 2018-06-08T09:36:29Z\n\t\t\t5b 1a 4e 1d\n\t\tPublic-key Algorithm: EdDSA (pub 22)\n\t\t\t16\n\t\tECC Curve OID: ed25519 (256bits key size)\n\t\t\t2b 06 01 04 01 da 47 0f 01\n\t\tEdDSA EC point (Native point format of the curve follows) (263 bits)\n\t\t\t40 c6 ae d8 56 62 34 73 e7 f1 86 ff 5f 09 dd d2 c2 b5 48 bd 78 94 90 a8 d2 fd 9c fc c6 69 15 fb 86\n\tSecret-Key (s2k usage 0; plain secret-key material)\n\t\tEdDSA secret key (255 bits)\n\t\t\t50 5e cc 13 31 23 59 49 c2 cc 48 1d 7c e8 39 85 ac 36 2f 76 ff 5a e5 d6 09 68 c6 e7 de cb 00 5c\n\t\t2-octet checksum\n\t\t\t10 55\n" 
-- tag05_test.go
#guard runTest 5 [5, 92, 145, 244, 228, 22, 0, 0, 0, 45, 9, 43, 6, 1, 4, 1, 218, 71, 15, 1, 1, 7, 64, 88, 89, 149, 87, 21, 86, 220, 31, 251, 109, 113, 53, 3, 215, 249, 231, 12, 36, 144, 75, 208, 195, 221, 126, 62, 249, 138, 236, 126, 155, 47, 16, 0, 0, 0, 0, 0, 34, 1, 0, 135, 103, 84, 167, 73, 73, 150, 171, 17, 44, 160, 142, 159, 105, 194, 21, 101, 11, 186, 154, 152, 119, 112, 17, 115, 205, 59, 220, 155, 153, 64, 54, 14, 92] none .notSpecified "Secret-Key Packet (tag 5) (97 bytes)\n\t05 5c 91 f4 e4 16 00 00 00 2d 09 2b 06 01 04 01 da 47 0f 01 01 07 40 58 59 95 57 15 56 dc 1f fb 6d 71 35 03 d7 f9 e7 0c 24 90 4b d0 c3 dd 7e 3e f9 8a ec 7e 9b 2f 10 00 00 00 00 00 22 01 00 87 67 54 a7 49 49 96 ab 11 2c a0 8e 9f 69 c2 15 65 0b ba 9a 98 77 70 11 73 cd 3b dc 9b 99 40 36 0e 5c\n\tVersion: 5 (draft)\n\t\t05\n\tPublic-Key\n\t\tPublic key creation time: 2019-03-20T08:08:04Z\n\t\t\t5c 91 f4 e4\n\t\tPublic-key Algorithm: EdDSA (pub 22)\n\t\t\t16\n\t\tECC Curve OID: ed25519 (256bits key size)\n\t\t\t2b 06 01 04 01 da 47 0f 01\n\t\tEdDSA EC point (Native point format of the curve follows) (263 bits)\n\t\t\t40 58 59 95 57 15 56 dc 1f fb 6d 71 35 03 d7 f9 e7 0c 24 90 4b d0 c3 dd 7e 3e f9 8a ec 7e 9b 2f 10\n\tSecret-Key (s2k usage 0; plain secret-key material)\n\t\tEdDSA secret key (256 bits)\n\t\t\t87 67 54 a7 49 49 96 ab 11 2c a0 8e 9f 69 c2 15 65 0b ba 9a 98 77 70 11 73 cd 3b dc 9b 99 40 36\n\t\t2-octet checksum\n\t\t\t0e 5c\n" 
-- tag06_test.go
#guard runTest 6 [4, 84, 195, 1, 191, 19, 8, 42, 134, 72, 206, 61, 3, 1, 7, 2, 3, 4, 165, 213, 188, 118, 7, 219, 184, 143, 178, 33, 25, 17, 176, 208, 90, 126, 233, 52, 223, 163, 141, 142, 249, 185, 126, 182, 216, 99, 10, 238, 146, 238, 13, 116, 199, 192, 72, 243, 184, 213, 170, 168, 115, 189, 231, 25, 181, 218, 216, 246, 104, 5, 3, 21, 125, 154, 132, 67, 97, 202, 238, 223, 214, 14] none .notSpecified "Public-Key Packet (tag 6) (82 bytes)\n\t04 54 c3 01 bf 13 08 2a 86 48 ce 3d 03 01 07 02 03 04 a5 d5 bc 76 07 db b8 8f b2 21 19 11 b0 d0 5a 7e e9 34 df a3 8d 8e f9 b9 7e b6 d8 63 0a ee 92 ee 0d 74 c7 c0 48 f3 b8 d5 aa a8 73 bd e7 19 b5 da d8 f6 68 05 03 15 7d 9a 84 43 61 ca ee df d6 0e\n\tVersion: 4 (current)\n\t\t04\n\tPublic key creation time: 2015-01-24T02:21:51Z\n\t\t54 c3 01 bf\n\tPublic-key Algorithm: ECDSA public key algorithm (pub 19)\n\t\t13\n\tECC Curve OID: nistp256 (256bits key size)\n\t\t2a 86 48 ce 3d 03 01 07\n\tECDSA EC point (uncompressed format) (515 bits)\n\t\t04 a5 d5 bc 76 07 db b8 8f b2 21 19 11 b0 d0 5a 7e e9 34 df a3 8d 8e f9 b9 7e b6 d8 63 0a ee 92 ee 0d 74 c7 c0 48 f3 b8 d5 aa a8 73 bd e7 19 b5 da d8 f6 68 05 03 15 7d 9a 84 43 61 ca ee df d6 0e\n" 
-- tag07_test.go
#guard runTest 7 [4, 91, 26, 78, 29, 18, 10, 43, 6, 1, 4, 1, 151, 85, 1, 5, 1, 1, 7, 64, 74, 251, 149, 203, 51, 178, 217, 213, 118, 25, 19, 57, 129, 159, 100, 155, 152, 67, 57, 198, 165, 252, 246, 252, 156, 157, 186, 13, 204, 154, 125, 125, 3, 1, 10, 9, 0, 0, 255, 120, 214, 29, 133, 164, 221, 70, 56, 47, 214, 170, 112, 124, 9, 143, 213, 93, 43, 26, 227, 63, 155, 40, 201, 76, 117, 81, 236, 191, 225, 213, 24, 16, 209] none .notSpecified "Secret-Subkey Packet (tag 7) (93 bytes)\n\t04 5b 1a 4e 1d 12 0a 2b 06 01 04 01 97 55 01 05 01 01 07 40 4a fb 95 cb 33 b2 d9 d5 76 19 13 39 81 9f 64 9b 98 43 39 c6 a5 fc f6 fc 9c 9d ba 0d cc 9a 7d 7d 03 01 0a 09 00 00 ff 78 d6 1d 85 a4 dd 46 38 2f d6 aa 70 7c 09 8f d5 5d 2b 1a e3 3f 9b 28 c9 4c 75 51 ec bf e1 d5 18 10 d1\n\tVersion: 4 (current)\n\t\t04\n\tPublic-Key\n\t\tPublic key creation time: 2018-06-08T09:36:29Z\n\t\t\t5b 1a 4e 1d\n\t\tPublic-key Algorithm: ECDH public key algorithm (pub 18)\n\t\t\t12\n\t\tECC Curve OID: cv25519 (256bits key size)\n\t\t\t2b 06 01 04 01 97 55 01 05 01\n\t\tECDH EC point (Native point format of the curve follows) (263 bits)\n\t\t\t40 4a fb 95 cb 33 b2 d9 d5 76 19 13 39 81 9f 64 9b 98 43 39 c6 a5 fc f6 fc 9c 9d ba 0d cc 9a 7d 7d\n\t\tKDF parameters (3 bytes)\n\t\t\t01 0a 09\n\t\t\tHash Algorithm: SHA2-512 (hash 10)\n\t\t\t\t0a\n\t\t\tSymmetric Algorithm: AES with 256-bit key (sym 9)\n\t\t\t\t09\n\tSecret-Key (s2k usage 0; plain secret-key material)\n\t\tECDH secret key (255 bits)\n\t\t\t78 d6 1d 85 a4 dd 46 38 2f d6 aa 70 7c 09 8f d5 5d 2b 1a e3 3f 9b 28 c9 4c 75 51 ec bf e1 d5 18\n\t\t2-octet checksum\n\t\t\t10 d1\n" 
-- tag07_test.go
#guard runTest 7 [5, 92, 145, 244, 228, 18, 0, 0, 0, 50, 10, 43, 6, 1, 4, 1, 151, 85, 1, 5, 1, 1, 7, 64, 250, 124, 172, 175, 57, 165, 217, 64, 176, 120, 10, 173, 164, 59, 167, 113, 35, 229, 190, 183, 1, 88, 165, 52, 201, 245, 52, 98, 246, 22, 88, 10, 3, 1, 8, 7, 0, 0, 0, 0, 0, 34, 0, 255, 78, 116, 3, 233, 166, 53, 53, 91, 10, 106, 140, 130, 45, 147, 26, 254, 84, 244, 17, 79, 198, 102, 253, 24, 176, 237, 77, 197, 234, 253, 206, 136, 17, 71] none .notSpecified "Secret-Subkey Packet (tag 7) (102 bytes)\n\t05 5c 91 f4 e4 12 00 00 00 32 0a 2b 06 01 04 01 97 55 01 05 01 01 07 40 fa 7c ac af 39 a5 d9 40 b0 78 0a ad a4 3b a7 71 23 e5 be b7 01 58 a5 34 c9 f5 34 62 f6 16 58 0a 03 01 08 07 00 00 00 00 00 22 00 ff 4e 74 03 e9 a6 35 35 5b 0a 6a 8c 82 2d 93 1a fe 54 f4 11 4f c6 66 fd 18 b0 ed 4d c5 ea fd ce 88 11 47\n\tVersion: 5 (draft)\n\t\t05\n\tPublic-Key\n\t\tPublic key creation time: 2019-03-20T08:08:04Z\n\t\t\t5c 91 f4 e4\n\t\tPublic-key Algorithm: ECDH public key algorithm (pub 18)\n\t\t\t12\n\t\tECC Curve OID: cv25519 (256bits key size)\n\t\t\t2b 06 01 04 01 97 55 01 05 01\n\t\tECDH EC point (Native point format of the curve follows) (263 bits)\n\t\t\t40 fa 7c ac af 39 a5 d9 40 b0 78 0a ad a4 3b a7 71 23 e5 be b7 01 58 a5 34 c9 f5 34 62 f6 16 58 0a\n\t\tKDF parameters (3 bytes)\n\t\t\t01 08 07\n\t\t\tHash Algorithm: SHA2-256 (hash 8)\n\t\t\t\t08\n\t\t\tSymmetric Algorithm: AES with 128-bit key (sym 7)\n\t\t\t\t07\n\tSecret-Key (s2k usage 0; plain secret-key material)\n\t\tECDH secret key (255 bits)\n\t\t\t4e 74 03 e9 a6 35 35 5b 0a 6a 8c 82 2d 93 1a fe 54 f4 11 4f c6 66 fd 18 b0 ed 4d c5 ea fd ce 88\n\t\t2-octet checksum\n\t\t\t11 47\n" 
-- tag08_test.go
#guard runTest 8 [1, 155, 192, 203, 204, 192, 33, 184, 229, 150, 245, 186, 58, 133, 29, 50, 140, 167, 133, 147, 24, 162, 36, 121, 159, 120, 164, 230, 228, 228, 43, 148, 231, 23, 229, 164, 240, 114, 117, 148, 178, 48, 8, 114, 48, 200, 138, 41, 178, 72, 7, 49, 221, 246, 178, 59, 94, 246, 241, 193, 90, 9, 152, 38, 86, 38, 144, 14, 6, 46, 78, 1, 152, 72, 177, 13, 35, 67, 203, 251, 119, 235, 148, 50, 245, 214, 27, 111, 110, 125, 248, 110, 85, 172, 126, 213, 149, 117, 139, 39, 93, 126, 81, 124, 101, 3, 131, 221, 73, 237, 134, 239, 12, 255, 107, 206, 236, 188, 196, 230, 177, 217, 50, 98, 246, 138, 153, 71, 15, 5, 39, 237, 237, 23, 243, 44, 126, 144, 250, 111, 217, 119, 9, 169, 138, 255, 169, 207, 0] none .notSpecified "Compressed Data Packet (tag 8) (149 bytes)\n\t01 9b c0 cb cc c0 21 b8 e5 96 f5 ba 3a 85 1d 32 8c a7 85 93 18 a2 24 79 9f 78 a4 e6 e4 e4 2b 94 e7 17 e5 a4 f0 72 75 94 b2 30 08 72 30 c8 8a 29 b2 48 07 31 dd f6 b2 3b 5e f6 f1 c1 5a 09 98 26 56 26 90 0e 06 2e 4e 01 98 48 b1 0d 23 43 cb fb 77 eb 94 32 f5 d6 1b 6f 6e 7d f8 6e 55 ac 7e d5 95 75 8b 27 5d 7e 51 7c 65 03 83 dd 49 ed 86 ef 0c ff 6b ce ec bc c4 e6 b1 d9 32 62 f6 8a 99 47 0f 05 27 ed ed 17 f3 2c 7e 90 fa 6f d9 77 09 a9 8a ff a9 cf 00\n\tCompression Algorithm: ZIP <RFC1951> (comp 1)\n\t\t01\n\tCompressed data (148 bytes)\n\t\t9b c0 cb cc c0 21 b8 e5 96 f5 ba 3a 85 1d 32 8c a7 85 93 18 a2 24 79 9f 78 a4 e6 e4 e4 2b 94 e7 17 e5 a4 f0 72 75 94 b2 30 08 72 30 c8 8a 29 b2 48 07 31 dd f6 b2 3b 5e f6 f1 c1 5a 09 98 26 56 26 90 0e 06 2e 4e 01 98 48 b1 0d 23 43 cb fb 77 eb 94 32 f5 d6 1b 6f 6e 7d f8 6e 55 ac 7e d5 95 75 8b 27 5d 7e 51 7c 65 03 83 dd 49 ed 86 ef 0c ff 6b ce ec bc c4 e6 b1 d9 32 62 f6 8a 99 47 0f 05 27 ed ed 17 f3 2c 7e 90 fa 6f d9 77 09 a9 8a ff a9 cf 00\n" 
-- tag09_test.go
#guard runTest 9 [231, 45, 47, 177, 241, 15, 195, 206, 85, 93, 178, 138, 75, 232, 79, 67, 21, 110, 125, 144, 144, 83, 106, 154, 227, 170, 28, 104, 214, 211, 252, 106, 78, 121, 168, 231, 177, 165, 135, 234, 204, 204, 153, 102, 49, 173, 255, 225, 163, 3, 182, 71, 133, 118, 189, 11] none .notSpecified "Symmetrically Encrypted Data Packet (tag 9) (56 bytes)\n\te7 2d 2f b1 f1 0f c3 ce 55 5d b2 8a 4b e8 4f 43 15 6e 7d 90 90 53 6a 9a e3 aa 1c 68 d6 d3 fc 6a 4e 79 a8 e7 b1 a5 87 ea cc cc 99 66 31 ad ff e1 a3 03 b6 47 85 76 bd 0b\n\tEncrypted data: sym alg is specified in sym-key encrypted session key (56 bytes)\n\t\te7 2d 2f b1 f1 0f c3 ce 55 5d b2 8a 4b e8 4f 43 15 6e 7d 90 90 53 6a 9a e3 aa 1c 68 d6 d3 fc 6a 4e 79 a8 e7 b1 a5 87 ea cc cc 99 66 31 ad ff e1 a3 03 b6 47 85 76 bd 0b\n" .symEnc
-- tag09_test.go
#guard runTest 9 [231, 45, 47, 177, 241, 15, 195, 206, 85, 93, 178, 138, 75, 232, 79, 67, 21, 110, 125, 144, 144, 83, 106, 154, 227, 170, 28, 104, 214, 211, 252, 106, 78, 121, 168, 231, 177, 165, 135, 234, 204, 204, 153, 102, 49, 173, 255, 225, 163, 3, 182, 71, 133, 118, 189, 11] none .notSpecified "Symmetrically Encrypted Data Packet (tag 9) (56 bytes)\n\te7 2d 2f b1 f1 0f c3 ce 55 5d b2 8a 4b e8 4f 43 15 6e 7d 90 90 53 6a 9a e3 aa 1c 68 d6 d3 fc 6a 4e 79 a8 e7 b1 a5 87 ea cc cc 99 66 31 ad ff e1 a3 03 b6 47 85 76 bd 0b\n\tEncrypted data: sym alg is specified in pub-key encrypted session key (56 bytes)\n\t\te7 2d 2f b1 f1 0f c3 ce 55 5d b2 8a 4b e8 4f 43 15 6e 7d 90 90 53 6a 9a e3 aa 1c 68 d6 d3 fc 6a 4e 79 a8 e7 b1 a5 87 ea cc cc 99 66 31 ad ff e1 a3 03 b6 47 85 76 bd 0b\n" .pubEnc
-- tag09_test.go
#guard runTest 9 [231, 45, 47, 177, 241, 15, 195, 206, 85, 93, 178, 138, 75, 232, 79, 67, 21, 110, 125, 144, 144, 83, 106, 154, 227, 170, 28, 104, 214, 211, 252, 106, 78, 121, 168, 231, 177, 165, 135, 234, 204, 204, 153, 102, 49, 173, 255, 225, 163, 3, 182, 71, 133, 118, 189, 11] none .notSpecified "Symmetrically Encrypted Data Packet (tag 9) (56 bytes)\n\te7 2d 2f b1 f1 0f c3 ce 55 5d b2 8a 4b e8 4f 43 15 6e 7d 90 90 53 6a 9a e3 aa 1c 68 d6 d3 fc 6a 4e 79 a8 e7 b1 a5 87 ea cc cc 99 66 31 ad ff e1 a3 03 b6 47 85 76 bd 0b\n\tEncrypted data: sym alg is IDEA, simple string-to-key (56 bytes)\n\t\te7 2d 2f b1 f1 0f c3 ce 55 5d b2 8a 4b e8 4f 43 15 6e 7d 90 90 53 6a 9a e3 aa 1c 68 d6 d3 fc 6a 4e 79 a8 e7 b1 a5 87 ea cc cc 99 66 31 ad ff e1 a3 03 b6 47 85 76 bd 0b\n" .notSpecified
-- tag10_test.go
#guard runTest 10 [80, 71, 80] none .notSpecified "Marker Packet (Obsolete Literal Packet) (tag 10) (3 bytes)\n\t50 47 50\n\tLiteral data (3 bytes)\n\t\t50 47 50\n" 
-- tag11_test.go
#guard runTest 11 [98, 0, 90, 25, 13, 228, 72, 101, 108, 108, 111, 32, 119, 111, 114, 108, 100, 13, 10] none .notSpecified "Literal Data Packet (tag 11) (19 bytes)\n\t62 00 5a 19 0d e4 48 65 6c 6c 6f 20 77 6f 72 6c 64 0d 0a\n\tLiteral data format: b (binary)\n\tFile name (0 byte)\n\tCreation time: 2017-11-25T06:29:56Z\n\t\t5a 19 0d e4\n\tLiteral data (13 bytes)\n\t\t48 65 6c 6c 6f 20 77 6f 72 6c 64 0d 0a\n" 
-- tag11_test.go
#guard runTest 11 [98, 4, 104, 111, 103, 101, 10, 0, 4, 80, 27, 36, 66, 59, 51, 75, 92, 79, 66, 73, 39, 36, 71, 36, 57, 33, 35, 27, 40, 66, 10, 27, 36, 66, 36, 61, 36, 108, 33, 35, 27, 40, 66, 10, 10] none .notSpecified "Literal Data Packet (tag 11) (45 bytes)\n\t62 04 68 6f 67 65 0a 00 04 50 1b 24 42 3b 33 4b 5c 4f 42 49 27 24 47 24 39 21 23 1b 28 42 0a 1b 24 42 24 3d 24 6c 21 23 1b 28 42 0a 0a\n\tLiteral data format: b (binary)\n\tFile name: hoge\n\t\t68 6f 67 65\n\tCreation time: 1975-04-26T19:41:04Z\n\t\t0a 00 04 50\n\tLiteral data (35 bytes)\n\t\t1b 24 42 3b 33 4b 5c 4f 42 49 27 24 47 24 39 21 23 1b 28 42 0a 1b 24 42 24 3d 24 6c 21 23 1b 28 42 0a 0a\n" 
-- tag13_test.go
#guard runTest 13 [74, 111, 104, 110, 32, 68, 111, 101, 32, 40, 102, 111, 114, 69, 67, 67, 41, 32, 60, 106, 111, 104, 110, 64, 101, 120, 97, 109, 108, 101, 46, 99, 111, 109, 62] none .notSpecified "User ID Packet (tag 13) (35 bytes)\n\t4a 6f 68 6e 20 44 6f 65 20 28 66 6f 72 45 43 43 29 20 3c 6a 6f 68 6e 40 65 78 61 6d 6c 65 2e 63 6f 6d 3e\n\tUser ID: John Doe (forECC) <john@examle.com>\n\t\t4a 6f 68 6e 20 44 6f 65 20 28 66 6f 72 45 43 43 29 20 3c 6a 6f 68 6e 40 65 78 61 6d 6c 65 2e 63 6f 6d 3e\n" 
-- tag14_test.go
#guard runTest 14 [4, 54, 93, 92, 76, 16, 8, 0, 246, 66, 87, 183, 8, 127, 8, 23, 114, 162, 186, 214, 169, 66, 243, 5, 232, 249, 83, 17, 57, 79, 182, 241, 110, 185, 75, 56, 32, 218, 1, 167, 86, 163, 20, 233, 143, 64, 85, 243, 208, 7, 198, 203, 67, 169, 148, 173, 247, 76, 100, 134, 73, 248, 12, 131, 189, 101, 233, 23, 212, 161, 211, 80, 248, 245, 89, 95, 220, 118, 82, 79, 61, 61, 141, 219, 206, 153, 225, 87, 146, 89, 205, 253, 184, 174, 116, 79, 197, 252, 118, 188, 131, 197, 71, 48, 97, 206, 124, 201, 102, 255, 21, 249, 187, 253, 145, 94, 199, 1, 170, 211, 91, 158, 141, 160, 165, 114, 58, 212, 26, 240, 191, 70, 0, 88, 43, 229, 244, 136, 253, 88, 78, 73, 219, 205, 32, 180, 157, 228, 145, 7, 54, 107, 51, 108, 56, 13, 69, 29, 15, 124, 136, 179, 28, 124, 91, 45, 142, 246, 243, 201, 35, 192, 67, 240, 165, 91, 24, 141, 142, 187, 85, 140, 184, 93, 56, 211, 52, 253, 124, 23, 87, 67, 163, 29, 24, 108, 222, 51, 33, 44, 181, 42, 255, 60, 225, 177, 41, 64, 24, 17, 141, 124, 132, 167, 10, 114, 214, 134, 196, 3, 25, 200, 7, 41, 122, 202, 149, 12, 217, 150, 159, 171, 208, 10, 80, 155, 2, 70, 211, 8, 61, 102, 164, 93, 65, 159, 156, 124, 189, 137, 75, 34, 25, 38, 186, 171, 162, 94, 195, 85, 233, 50, 11, 59, 0, 2, 2, 8, 0, 146, 61, 111, 189, 229, 104, 90, 23, 210, 133, 79, 100, 165, 46, 40, 87, 130, 55, 0, 89, 209, 77, 119, 56, 221, 234, 136, 175, 178, 70, 70, 155, 124, 108, 182, 98, 216, 75, 37, 68, 0, 223, 233, 67, 227, 195, 70, 172, 159, 99, 222, 137, 214, 153, 10, 254, 143, 1, 97, 83, 66, 213, 11, 225, 63, 169, 185, 55, 13, 82, 117, 190, 23, 185, 250, 116, 215, 212, 65, 165, 194, 222, 233, 127, 171, 24, 170, 234, 187, 212, 81, 130, 152, 203, 158, 138, 124, 67, 249, 78, 88, 15, 34, 114, 0, 235, 82, 123, 61, 225, 204, 65, 207, 6, 0, 101, 133, 146, 172, 40, 115, 226, 186, 227, 226, 88, 224, 226, 228, 221, 221, 204, 170, 164, 222, 108, 14, 131, 117, 253, 29, 252, 110, 181, 15, 86, 164, 200, 223, 115, 227, 32, 136, 87, 111, 37, 19, 193, 158, 146, 58, 166, 131, 31, 153, 17, 172, 66, 156, 233, 186, 241, 218, 77, 23, 215, 112, 23, 51, 245, 99, 185, 197, 246, 38, 252, 208, 167, 139, 39, 9, 8, 79, 11, 187, 214, 114, 107, 104, 144, 233, 29, 26, 116, 225, 189, 178, 115, 136, 22, 147, 54, 250, 106, 123, 147, 157, 119, 244, 210, 231, 51, 126, 153, 122, 58, 44, 253, 243, 6, 84, 245, 72, 184, 69, 169, 200, 191, 190, 93, 54, 9, 195, 83, 36, 208, 218, 34, 26, 5, 122, 220, 64, 55, 240, 176] none .notSpecified "Public-Subkey Packet (tag 14) (525 bytes)\n\t04 36 5d 5c 4c 10 08 00 f6 42 57 b7 08 7f 08 17 72 a2 ba d6 a9 42 f3 05 e8 f9 53 11 39 4f b6 f1 6e b9 4b 38 20 da 01 a7 56 a3 14 e9 8f 40 55 f3 d0 07 c6 cb 43 a9 94 ad f7 4c 64 86 49 f8 0c 83 bd 65 e9 17 d4 a1 d3 50 f8 f5 59 5f dc 76 52 4f 3d 3d 8d db ce 99 e1 57 92 59 cd fd b8 ae 74 4f c5 fc 76 bc 83 c5 47 30 61 ce 7c c9 66 ff 15 f9 bb fd 91 5e c7 01 aa d3 5b 9e 8d a0 a5 72 3a d4 1a f0 bf 46 00 58 2b e5 f4 88 fd 58 4e 49 db cd 20 b4 9d e4 91 07 36 6b 33 6c 38 0d 45 1d 0f 7c 88 b3 1c 7c 5b 2d 8e f6 f3 c9 23 c0 43 f0 a5 5b 18 8d 8e bb 55 8c b8 5d 38 d3 34 fd 7c 17 57 43 a3 1d 18 6c de 33 21 2c b5 2a ff 3c e1 b1 29 40 18 11 8d 7c 84 a7 0a 72 d6 86 c4 03 19 c8 07 29 7a ca 95 0c d9 96 9f ab d0 0a 50 9b 02 46 d3 08 3d 66 a4 5d 41 9f 9c 7c bd 89 4b 22 19 26 ba ab a2 5e c3 55 e9 32 0b 3b 00 02 02 08 00 92 3d 6f bd e5 68 5a 17 d2 85 4f 64 a5 2e 28 57 82 37 00 59 d1 4d 77 38 dd ea 88 af b2 46 46 9b 7c 6c b6 62 d8 4b 25 44 00 df e9 43 e3 c3 46 ac 9f 63 de 89 d6 99 0a fe 8f 01 61 53 42 d5 0b e1 3f a9 b9 37 0d 52 75 be 17 b9 fa 74 d7 d4 41 a5 c2 de e9 7f ab 18 aa ea bb d4 51 82 98 cb 9e 8a 7c 43 f9 4e 58 0f 22 72 00 eb 52 7b 3d e1 cc 41 cf 06 00 65 85 92 ac 28 73 e2 ba e3 e2 58 e0 e2 e4 dd dd cc aa a4 de 6c 0e 83 75 fd 1d fc 6e b5 0f 56 a4 c8 df 73 e3 20 88 57 6f 25 13 c1 9e 92 3a a6 83 1f 99 11 ac 42 9c e9 ba f1 da 4d 17 d7 70 17 33 f5 63 b9 c5 f6 26 fc d0 a7 8b 27 09 08 4f 0b bb d6 72 6b 68 90 e9 1d 1a 74 e1 bd b2 73 88 16 93 36 fa 6a 7b 93 9d 77 f4 d2 e7 33 7e 99 7a 3a 2c fd f3 06 54 f5 48 b8 45 a9 c8 bf be 5d 36 09 c3 53 24 d0 da 22 1a 05 7a dc 40 37 f0 b0\n\tVersion: 4 (current)\n\t\t04\n\tPublic key creation time: 1998-11-26T13:49:00Z\n\t\t36 5d 5c 4c\n\tPublic-key Algorithm: Elgamal (Encrypt-Only) (pub 16)\n\t\t10\n\tElGamal prime p (2048 bits)\n\t\tf6 42 57 b7 08 7f 08 17 72 a2 ba d6 a9 42 f3 05 e8 f9 53 11 39 4f b6 f1 6e b9 4b 38 20 da 01 a7 56 a3 14 e9 8f 40 55 f3 d0 07 c6 cb 43 a9 94 ad f7 4c 64 86 49 f8 0c 83 bd 65 e9 17 d4 a1 d3 50 f8 f5 59 5f dc 76 52 4f 3d 3d 8d db ce 99 e1 57 92 59 cd fd b8 ae 74 4f c5 fc 76 bc 83 c5 47 30 61 ce 7c c9 66 ff 15 f9 bb fd 91 5e c7 01 aa d3 5b 9e 8d a0 a5 72 3a d4 1a f0 bf 46 00 58 2b e5 f4 88 fd 58 4e 49 db cd 20 b4 9d e4 91 07 36 6b 33 6c 38 0d 45 1d 0f 7c 88 b3 1c 7c 5b 2d 8e f6 f3 c9 23 c0 43 f0 a5 5b 18 8d 8e bb 55 8c b8 5d 38 d3 34 fd 7c 17 57 43 a3 1d 18 6c de 33 21 2c b5 2a ff 3c e1 b1 29 40 18 11 8d 7c 84 a7 0a 72 d6 86 c4 03 19 c8 07 29 7a ca 95 0c d9 96 9f ab d0 0a 50 9b 02 46 d3 08 3d 66 a4 5d 41 9f 9c 7c bd 89 4b 22 19 26 ba ab a2 5e c3 55 e9 32 0b 3b\n\tElGamal group generator g (2 bits)\n\t\t02\n\tElGamal public key value y (= g^x mod p where x is secret) (2048 bits)\n\t\t92 3d 6f bd e5 68 5a 17 d2 85 4f 64 a5 2e 28 57 82 37 00 59 d1 4d 77 38 dd ea 88 af b2 46 46 9b 7c 6c b6 62 d8 4b 25 44 00 df e9 43 e3 c3 46 ac 9f 63 de 89 d6 99 0a fe 8f 01 61 53 42 d5 0b e1 3f a9 b9 37 0d 52 75 be 17 b9 fa 74 d7 d4 41 a5 c2 de e9 7f ab 18 aa ea bb d4 51 82 98 cb 9e 8a 7c 43 f9 4e 58 0f 22 72 00 eb 52 7b 3d e1 cc 41 cf 06 00 65 85 92 ac 28 73 e2 ba e3 e2 58 e0 e2 e4 dd dd cc aa a4 de 6c 0e 83 75 fd 1d fc 6e b5 0f 56 a4 c8 df 73 e3 20 88 57 6f 25 13 c1 9e 92 3a a6 83 1f 99 11 ac 42 9c e9 ba f1 da 4d 17 d7 70 17 33 f5 63 b9 c5 f6 26 fc d0 a7 8b 27 09 08 4f 0b bb d6 72 6b 68 90 e9 1d 1a 74 e1 bd b2 73 88 16 93 36 fa 6a 7b 93 9d 77 f4 d2 e7 33 7e 99 7a 3a 2c fd f3 06 54 f5 48 b8 45 a9 c8 bf be 5d 36 09 c3 53 24 d0 da 22 1a 05 7a dc 40 37 f0 b0\n" 
-- tag18_test.go
#guard runTest 18 [1, 106, 230, 113, 202, 255, 246, 177, 255, 63, 113, 200, 119, 69, 136, 81, 255, 227, 242, 195, 149, 87, 231, 41, 128, 232, 229, 134, 124, 234, 152, 244, 4, 179, 138, 248, 136, 200, 145, 247, 86, 123, 203, 173, 117, 64, 72, 209, 90, 63, 63, 44, 29, 228, 54, 187, 233, 247, 119, 178, 184, 42, 68, 3, 190, 120, 226, 5, 59, 68, 182, 216, 78, 97, 165, 67, 5, 118, 138, 60, 100] none .notSpecified "Sym. Encrypted Integrity Protected Data Packet (tag 18) (81 bytes)\n\t01 6a e6 71 ca ff f6 b1 ff 3f 71 c8 77 45 88 51 ff e3 f2 c3 95 57 e7 29 80 e8 e5 86 7c ea 98 f4 04 b3 8a f8 88 c8 91 f7 56 7b cb ad 75 40 48 d1 5a 3f 3f 2c 1d e4 36 bb e9 f7 77 b2 b8 2a 44 03 be 78 e2 05 3b 44 b6 d8 4e 61 a5 43 05 76 8a 3c 64\n\tEncrypted data (81 bytes)\n\t\t01 6a e6 71 ca ff f6 b1 ff 3f 71 c8 77 45 88 51 ff e3 f2 c3 95 57 e7 29 80 e8 e5 86 7c ea 98 f4 04 b3 8a f8 88 c8 91 f7 56 7b cb ad 75 40 48 d1 5a 3f 3f 2c 1d e4 36 bb e9 f7 77 b2 b8 2a 44 03 be 78 e2 05 3b 44 b6 d8 4e 61 a5 43 05 76 8a 3c 64\n" .notSpecified
-- tag18_test.go
#guard runTest 18 [1, 106, 230, 113, 202, 255, 246, 177, 255, 63, 113, 200, 119, 69, 136, 81, 255, 227, 242, 195, 149, 87, 231, 41, 128, 232, 229, 134, 124, 234, 152, 244, 4, 179, 138, 248, 136, 200, 145, 247, 86, 123, 203, 173, 117, 64, 72, 209, 90, 63, 63, 44, 29, 228, 54, 187, 233, 247, 119, 178, 184, 42, 68, 3, 190, 120, 226, 5, 59, 68, 182, 216, 78, 97, 165, 67, 5, 118, 138, 60, 100] none .notSpecified "Sym. Encrypted Integrity Protected Data Packet (tag 18) (81 bytes)\n\t01 6a e6 71 ca ff f6 b1 ff 3f 71 c8 77 45 88 51 ff e3 f2 c3 95 57 e7 29 80 e8 e5 86 7c ea 98 f4 04 b3 8a f8 88 c8 91 f7 56 7b cb ad 75 40 48 d1 5a 3f 3f 2c 1d e4 36 bb e9 f7 77 b2 b8 2a 44 03 be 78 e2 05 3b 44 b6 d8 4e 61 a5 43 05 76 8a 3c 64\n\tEncrypted data (plain text + MDC SHA1(20 bytes); sym alg is specified in pub-key encrypted session key)\n\t\t01 6a e6 71 ca ff f6 b1 ff 3f 71 c8 77 45 88 51 ff e3 f2 c3 95 57 e7 29 80 e8 e5 86 7c ea 98 f4 04 b3 8a f8 88 c8 91 f7 56 7b cb ad 75 40 48 d1 5a 3f 3f 2c 1d e4 36 bb e9 f7 77 b2 b8 2a 44 03 be 78 e2 05 3b 44 b6 d8 4e 61 a5 43 05 76 8a 3c 64\n" .pubEnc
-- tag18_test.go
#guard runTest 18 [1, 106, 230, 113, 202, 255, 246, 177, 255, 63, 113, 200, 119, 69, 136, 81, 255, 227, 242, 195, 149, 87, 231, 41, 128, 232, 229, 134, 124, 234, 152, 244, 4, 179, 138, 248, 136, 200, 145, 247, 86, 123, 203, 173, 117, 64, 72, 209, 90, 63, 63, 44, 29, 228, 54, 187, 233, 247, 119, 178, 184, 42, 68, 3, 190, 120, 226, 5, 59, 68, 182, 216, 78, 97, 165, 67, 5, 118, 138, 60, 100] none .notSpecified "Sym. Encrypted Integrity Protected Data Packet (tag 18) (81 bytes)\n\t01 6a e6 71 ca ff f6 b1 ff 3f 71 c8 77 45 88 51 ff e3 f2 c3 95 57 e7 29 80 e8 e5 86 7c ea 98 f4 04 b3 8a f8 88 c8 91 f7 56 7b cb ad 75 40 48 d1 5a 3f 3f 2c 1d e4 36 bb e9 f7 77 b2 b8 2a 44 03 be 78 e2 05 3b 44 b6 d8 4e 61 a5 43 05 76 8a 3c 64\n\tEncrypted data (plain text + MDC SHA1(20 bytes); sym alg is specified in sym-key encrypted session key)\n\t\t01 6a e6 71 ca ff f6 b1 ff 3f 71 c8 77 45 88 51 ff e3 f2 c3 95 57 e7 29 80 e8 e5 86 7c ea 98 f4 04 b3 8a f8 88 c8 91 f7 56 7b cb ad 75 40 48 d1 5a 3f 3f 2c 1d e4 36 bb e9 f7 77 b2 b8 2a 44 03 be 78 e2 05 3b 44 b6 d8 4e 61 a5 43 05 76 8a 3c 64\n" .symEnc
-- tagPrivate_test.go
#guard runTest 60 [1, 2, 3, 4] none .notSpecified "Private or Experimental Values (tag 60) (4 bytes)\n\t01 02 03 04\n"
#guard runTest 63 [1, 2, 3, 4] none .notSpecified "Private or Experimental Values (tag 63) (4 bytes)\n\t01 02 03 04\n"
-- tagsUnknown_test.go
#guard runTest 15 [1, 2, 3, 4] none .notSpecified "Unknown (tag 15) (4 bytes)\n\t01 02 03 04\n"

end Gpgpdump.Tests
