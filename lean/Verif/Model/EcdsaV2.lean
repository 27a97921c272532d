import Verif.Model.Ecdsa
import Verif.Model.Bip340
/-
Model of /repo/package/github.com/btcsuite/btcd/btcec/v2/ecdsa/signature.go: the parsers of ECDSA signatures. Sign, SignCompact and
RecoverCompact there are calls of the package secp256k1/v4/ecdsa, which is not in /repo, and are not modelled.
-/
namespace Tss.EcdsaV2
open Tss Tss.Bip340
open Tss.Secp (SigErr byteAt sliceOf checkPad)

/-- v2/ecdsa/signature.go:117-119, 167-169: strip the leading zeros. -/
def stripLead : Bytes → Bytes
  | [] => []
  | x :: t => if x = 0 then stripLead t else x :: t

/-- `ModNScalar.SetByteSlice` of decred: only the first 32 bytes of a longer slice count. -/
def setByteSlice (b : Bytes) : Sc × Bool := setBytes (b.take 32)

/-- v2/ecdsa/signature.go:116-137 and 166-187: a number as a scalar in [1, N-1]. Simplification: the two texts for numbers that are too
large are one error. -/
def scalarOf (b : Bytes) (big zero : SigErr) : Res SigErr Sc :=
  let b := stripLead b
  if b.length > 32 then .err big else
  if (setByteSlice b).2 then .err big else
  if (setByteSlice b).1 = 0 then .err zero else
  .ok (setByteSlice b).1

/-- v2/ecdsa/signature.go:61-197 `parseSig`; canonicalPadding (50-59) is the one of v1. -/
def parseSig (sigStr : Bytes) (der : Bool) : Res SigErr (Sc × Sc) := do
  if sigStr.length < 8 then Res.err .tooShort else
  if (← byteAt sigStr 0) ≠ 0x30 then Res.err .magic else
  let siglen : UInt8 ← byteAt sigStr 1
  let total := (siglen + 2).toNat
  if total > sigStr.length ∨ total < 8 then Res.err .badLength else
  let sig ← sliceOf sigStr 0 total
  if (← byteAt sig 2) ≠ 0x02 then Res.err .marker1 else
  let rLen := (← byteAt sig 3).toNat
  if rLen ≤ 0 ∨ (rLen : Int) > (sig.length : Int) - 4 - 3 then Res.err .rLength else
  let rBytes ← sliceOf sig 4 (4 + rLen)
  checkPad der rBytes .rNegative .rPadded
  let r ← scalarOf rBytes .rTooLarge .rSign
  let index := 4 + rLen
  if (← byteAt sig index) ≠ 0x02 then Res.err .marker2 else
  let sLen := (← byteAt sig (index + 1)).toNat
  let index := index + 2
  if sLen ≤ 0 ∨ (sLen : Int) > (sig.length : Int) - index then Res.err .sLength else
  let sBytes ← sliceOf sig index (index + sLen)
  checkPad der sBytes .sNegative .sPadded
  let s ← scalarOf sBytes .sTooLarge .sSign
  if index + sLen ≠ sig.length then Res.err .finalLength else
  return (r, s)

/-- v2/ecdsa/signature.go:202-204 `ParseSignature`. -/
def parseSignature (b : Bytes) : Res SigErr (Sc × Sc) := parseSig b false

/-- v2/ecdsa/signature.go:209-211 `ParseDERSignature`. -/
def parseDERSignature (b : Bytes) : Res SigErr (Sc × Sc) := parseSig b true

end Tss.EcdsaV2
