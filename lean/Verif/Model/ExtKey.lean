import Verif.Model.Ckd
import Verif.Lemmas.PowMod
/-
Model of the string form of extended keys, /repo/crypto/ckd/child_key_derivation.go:68-146, with the parsing of compressed public
keys of /repo/package/github.com/btcsuite/btcd/btcec/v1/pubkey.go. Base58 (package btcutil/base58, not in /repo) is a parameter,
instantiated below by the published algorithm; double SHA-256 is a parameter.
-/
namespace Tss.Ckd
open Tss

/-- The text encoding and the hash. -/
structure StrEnv where
  enc58 : Bytes → Bytes
  dec58 : Bytes → Bytes
  dsha : Bytes → Bytes

/-- secp256k1's field modulus (btcec.go:931). -/
def secpP : Nat := 2 ^ 256 - 2 ^ 32 - 977

/-- pubkey.go:26-58 `decompressPoint`; field.go:1254-1341 `SqrtVal` is the power (P+1)/4. The field arithmetic reduces `x`, which may
be larger than P. none is the error return. -/
def decompressPoint (x : Nat) (ybit : Bool) : Option Nat :=
  let x3 := (x ^ 3 + 7) % secpP
  let y0 := powMod x3 ((secpP + 1) / 4) secpP
  let y := if ybit != decide (y0 % 2 = 1) then (secpP - y0) % secpP else y0
  if y * y % secpP ≠ x3 then none
  else if ybit != decide (y % 2 = 1) then none
  else some y

/-- pubkey.go:78-138 `ParsePubKey` on 33 bytes. -/
def parsePubKey (b : Bytes) : Option ECPoint :=
  match b with
  | [] => none
  | format :: rest =>
    if b.length ≠ 33 then none
    else if format &&& 0xfe ≠ 2 then none
    else (decompressPoint (beNat rest) (decide (format &&& 1 = 1))).map fun (y : Nat) => ⟨(beNat rest : Int), (y : Int)⟩

/-- Which curve is passed: the btcec curve, or another one of the given bit size (`elliptic.Unmarshal` then wants 1 + 2·size bytes:
33 only for curves of 121 to 128 bits, which are not modelled; for every other size it returns nil coordinates). -/
inductive CurveArg where
  | koblitz
  | other

/-- child_key_derivation.go:69-86 `String`; nil coordinates panic. -/
def Key.serialize (S : StrEnv) (k : Key) : Res Err Bytes :=
  match k.pub with
  | none => .panic
  | some p =>
    let ser := k.version ++ [UInt8.ofNat k.depth] ++ k.parentFP ++ beFixed 4 k.childIndex ++ k.chainCode ++ serializeCompressed p.x p.y
    .ok (S.enc58 (ser ++ (S.dsha ser).take 4))

/-- child_key_derivation.go:89-140 `NewExtendedKeyFromString`. -/
def newExtendedKeyFromString (S : StrEnv) (key : Bytes) (curve : CurveArg) : Res Err Key :=
  let decoded := S.dec58 key
  if decoded.length ≠ 82 then .err .invalidExtendedKey
  else
    let payload := decoded.take 78
    let checkSum := decoded.drop 78
    if checkSum ≠ (S.dsha payload).take 4 then .err .invalidExtendedKey
    else
      let keyData := payload.drop 45
      let rest (pub : Option ECPoint) : Res Err Key :=
        .ok { pub := pub, deduce := none, depth := beNat ((payload.drop 4).take 1), childIndex := beNat ((payload.drop 9).take 4),
              priv := [], chainCode := (payload.drop 13).take 32, parentFP := (payload.drop 5).take 4, version := payload.take 4 }
      match curve with
      | .koblitz =>
        match parsePubKey keyData with
        | none => .err .badPubKey
        | some p => rest (some p)
      | .other => rest none

/-! ### Base58, as published (btcutil/base58: `Encode`, `Decode`) -/

/-- The alphabet. -/
def b58alphabet : Bytes := "123456789ABCDEFGHJKLMNPQRSTUVWXYZabcdefghijkmnopqrstuvwxyz".toUTF8.toList

/-- Digits, most significant first, without leading zeros. -/
def b58digits : Nat → Nat → List Nat
  | 0, _ => []
  | f + 1, n => if n = 0 then [] else b58digits f (n / 58) ++ [n % 58]

/-- Leading elements equal to `x`. -/
def leading (x : UInt8) (b : Bytes) : Nat := (b.takeWhile (· == x)).length

/-- `base58.Encode`. -/
def base58Encode (b : Bytes) : Bytes :=
  List.replicate (leading 0 b) 49 ++ (b58digits (beNat b) (beNat b)).map fun d => b58alphabet.getD d 0

/-- `base58.Decode`: empty on a character outside the alphabet. -/
def base58Decode (s : Bytes) : Bytes :=
  if s.all (fun c => b58alphabet.contains c) then
    let n := s.foldl (fun a c => a * 58 + b58alphabet.idxOf c) 0
    List.replicate (leading 49 s) 0 ++ natBE n
  else []

end Tss.Ckd
