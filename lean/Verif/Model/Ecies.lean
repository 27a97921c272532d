import Verif.Model.Ecdsa
/-
Model of /repo/package/github.com/btcsuite/btcd/btcec/v1/ciphering.go: encryption to a public key. SHA-512, HMAC-SHA256 and the AES
block functions are parameters; CBC mode is modelled.
-/
namespace Tss.Ecies
open Tss Tss.Secp

/-- The primitives: SHA-512, HMAC-SHA256 (key first), AES-256 on one block (key first) and its inverse. -/
structure Env where
  sha512 : Bytes → Bytes
  mac : Bytes → Bytes → Bytes
  enc : Bytes → Bytes → Bytes
  dec : Bytes → Bytes → Bytes

/-- Bytewise exclusive or. -/
def xorB (a b : Bytes) : Bytes := List.zipWith (· ^^^ ·) a b

/-- crypto/cipher `NewCBCEncrypter(...).CryptBlocks` on n blocks, as called in ciphering.go:109-110. -/
def cbcEnc (e : Bytes → Bytes) : Nat → Bytes → Bytes → Bytes
  | 0, _, _ => []
  | n + 1, iv, m => let c := e (xorB iv (m.take 16)); c ++ cbcEnc e n c (m.drop 16)

/-- crypto/cipher `NewCBCDecrypter(...).CryptBlocks` on n blocks, as called in ciphering.go:190-193. -/
def cbcDec (d : Bytes → Bytes) : Nat → Bytes → Bytes → Bytes
  | 0, _, _ => []
  | n + 1, iv, c => xorB iv (d (c.take 16)) ++ cbcDec d n (c.take 16) (c.drop 16)

/-- ciphering.go:201-205 `addPKCSPadding`. -/
def addPadding (src : Bytes) : Bytes :=
  let padding := 16 - src.length % 16
  src ++ List.replicate padding (UInt8.ofNat padding)

/-- The errors of `Decrypt`. -/
inductive Err where
  | tooShort | curve | xLength | yLength | pubkey (e : PErr) | padding | mac
deriving DecidableEq

/-- ciphering.go:208-216 `removePKCSPadding`; the index of an empty slice panics. -/
def removePadding (src : Bytes) : Res Err Bytes := do
  if src.length = 0 then Res.panic else
  let padLength := (← byteAt src (src.length - 1)).toNat
  if padLength > 16 ∨ src.length < 16 then Res.err .padding else
  sliceOf src 0 (src.length - padLength)

/-- ciphering.go:70-118 `Encrypt`, with the ephemeral secret `d` and the vector `iv` as drawn (an error of the random source is not
modelled); `NewPrivateKey` draws d in [1, N-1] and computes d·G. -/
def encrypt (E : Env) (d : Int) (iv : Bytes) (Q : ECPoint) (m : Bytes) : Bytes :=
  let ecdhKey := sharedSecret d Q
  let derived := E.sha512 ecdhKey
  let keyE := derived.take 32
  let keyM := derived.drop 32
  let paddedIn := addPadding m
  let p := s256.scalarBaseMult (intBytes d)
  let pb := serializeUncompressed ⟨p.1, p.2⟩
  let body := iv ++ ([0x02, 0xCA] ++ [0x00, 0x20]) ++ (pb.take 33).drop 1 ++ [0x00, 0x20] ++ pb.drop 33 ++
    cbcEnc (E.enc keyE) (paddedIn.length / 16) iv paddedIn
  body ++ E.mac keyM body

/-- ciphering.go:121-196 `Decrypt`. `CryptBlocks` panics on a length that is no multiple of 16. -/
def decrypt (E : Env) (D : Int) (b : Bytes) : Res Err Bytes := do
  if b.length < 16 + 70 + 16 + 32 then Res.err .tooShort else
  let iv ← sliceOf b 0 16
  if (← sliceOf b 16 18) ≠ [0x02, 0xCA] then Res.err .curve else
  if (← sliceOf b 18 20) ≠ [0x00, 0x20] then Res.err .xLength else
  let xBytes ← sliceOf b 20 52
  if (← sliceOf b 52 54) ≠ [0x00, 0x20] then Res.err .yLength else
  let yBytes ← sliceOf b 54 86
  match parsePubKey (0x04 :: (xBytes ++ yBytes)) with
  | .error e => Res.err (.pubkey e)
  | .ok pub =>
    if ((b.length : Int) - 16 - 86 - 32).tmod 16 ≠ 0 then Res.err .padding else
    let messageMAC ← sliceOf b (b.length - 32) b.length
    let derived := E.sha512 (sharedSecret D pub)
    let keyE := derived.take 32
    let keyM := derived.drop 32
    let expected := E.mac keyM (← sliceOf b 0 (b.length - 32))
    if messageMAC ≠ expected then Res.err .mac else
    let ct ← sliceOf b 86 (b.length - 32)
    if ct.length % 16 ≠ 0 then Res.panic else
    removePadding (cbcDec (E.dec keyE) (ct.length / 16) iv ct)

end Tss.Ecies
