import Verif.Model.Go
import Verif.Lemmas.SecpOrder
/-
Model of /repo/package/github.com/btcsuite/btcd/btcec/v2: curve.go (encodings of points), schnorr/pubkey.go, schnorr/signature.go.

Simplifications. The arithmetic of the package secp256k1/v4 that btcec/v2 wraps is not in /repo; it is modelled by what it
computes: a JacobianPoint or PublicKey is an element of the group of points of y² = x³ + 7 (the neutral element has the affine
coordinates (0, 0)), a ModNScalar an element of ZMod ord, a FieldVal an element of ZMod p. So a PublicKey that is not on the
curve cannot be written. `th tag m` is chainhash.TaggedHash of the concatenation m of its arguments, an arbitrary function.
-/
namespace Tss.Bip340
open Tss
open Tss.Secp (E p ord G pt)

/-- JacobianPoint (curve.go:14) and PublicKey (pubkey.go) of btcec/v2. -/
abbrev Pt := E.Point

/-- ModNScalar, modnscalar.go. -/
abbrev Sc := ZMod ord

/-- chainhash.TaggedHash; the tag as a string, the message as the concatenation of the byte strings passed. -/
abbrev TH := String → Bytes → Bytes

/-- `ScalarMultNonConst`, curve.go:66-68. -/
def mul (k : Sc) (P : Pt) : Pt := k.val • P

/-- `ScalarBaseMultNonConst`, curve.go:56-58. -/
def mulG (k : Sc) : Pt := mul k G

/-- The X coordinate after `ToAffine`. -/
def xOf : Pt → ZMod p
  | .zero => 0
  | .some x _ _ => x

/-- The Y coordinate after `ToAffine`. -/
def yOf : Pt → ZMod p
  | .zero => 0
  | .some _ y _ => y

/-- `FieldVal.IsOdd` of the Y coordinate. -/
def oddY (P : Pt) : Bool := (yOf P).val % 2 == 1

/-- `FieldVal.PutBytesUnchecked` / `ModNScalar.PutBytesUnchecked`. -/
def putBytes (n : Nat) : Bytes := beFixed 32 n

/-- The 32 bytes of the X coordinate. -/
def xb (P : Pt) : Bytes := putBytes (xOf P).val

/-- `PublicKey.SerializeCompressed`. -/
def compressed (P : Pt) : Bytes := (if oddY P then 3 else 2) :: xb P

/-- Errors of `secp.ParsePubKey` on 33 bytes. -/
inductive PErr where
  | length | format | xTooBig | notOnCurve
deriving DecidableEq

/-- `DecompressY`, curve.go:38-40, and the point it completes: the root (x³+7)^((p+1)/4), negated if its parity is not the wanted one. -/
def decompressY (x : ZMod p) (odd : Bool) : Option Pt :=
  let r := (x ^ 3 + 7) ^ ((p + 1) / 4)
  let y := if (r.val % 2 == 1) == odd then r else -r
  if h : y ^ 2 = x ^ 3 + 7 then some (pt x y h) else none

/-- `secp.ParsePubKey` (pubkey.go:32-34 of btcec/v2) on a string of 33 bytes; other lengths are not used by these packages. -/
def parsePubKey (b : Bytes) : Except PErr Pt :=
  match b with
  | [] => .error .length
  | f :: rest =>
    if rest.length ≠ 32 then .error .length
    else if f ≠ 2 ∧ f ≠ 3 then .error .format
    else if p ≤ beNat rest then .error .xTooBig
    else match decompressY (beNat rest : ZMod p) (f == 3) with
      | none => .error .notOnCurve
      | some P => .ok P

/-- `ParseJacobian`, curve.go:73-93. -/
def parseJacobian (b : Bytes) : Except PErr Pt :=
  match b with
  | [] => .error .length
  | f :: rest =>
    if rest.length ≠ 32 then .error .length
    else if f = 0 then .ok 0
    else parsePubKey b

open Classical in
/-- `JacobianToByteSlice`, curve.go:98-108. -/
noncomputable def jacobianToBytes (P : Pt) : Bytes :=
  if xOf P = 0 ∧ yOf P = 0 then List.replicate 33 0 else compressed P

/-- schnorr/pubkey.go:23-42 `ParsePubKey`: 32 bytes, the even Y. -/
def parseXOnly (b : Bytes) : Except PErr Pt :=
  if b.length ≠ 32 then .error .length else parsePubKey (2 :: b)

/-- schnorr/pubkey.go:46-49 `SerializePubKey`. -/
def serializePubKey (P : Pt) : Bytes := (compressed P).drop 1

/-- `ModNScalar.SetBytes` / `SetByteSlice` of at most 32 bytes: the reduced scalar and whether it overflowed. -/
def setBytes (b : Bytes) : Sc × Bool := ((beNat b : Sc), ord ≤ beNat b)

/-- schnorr/signature.go:38-41 `Signature`. -/
structure Sig where
  r : ZMod p
  s : Sc

/-- The errors of schnorr/signature.go. -/
inductive SErr where
  | tooShort | tooLong | rTooBig | sTooBig | hashLen | pubKey (e : PErr) | hashValue | rInfinity | rOdd | rUnequal | keyZero | nonceZero
deriving DecidableEq

/-- signature.go:57-63 `Serialize`. -/
def Sig.serialize (g : Sig) : Bytes := putBytes g.r.val ++ putBytes g.s.val

/-- signature.go:70-101 `ParseSignature`. -/
def parseSignature (b : Bytes) : Except SErr Sig :=
  if b.length < 64 then .error .tooShort
  else if b.length > 64 then .error .tooLong
  else if p ≤ beNat (b.take 32) then .error .rTooBig
  else if (setBytes (b.drop 32)).2 then .error .sTooBig
  else .ok ⟨(beNat (b.take 32) : ZMod p), (setBytes (b.drop 32)).1⟩

/-- signature.go:106-108 `IsEqual`. -/
def Sig.isEqual (a b : Sig) : Bool := a.r == b.r && a.s == b.s

/-- signature.go:164-176 and 310-323: the challenge, with the overflow flag of `SetBytes`. -/
def challenge (th : TH) (r : ZMod p) (pk m : Bytes) : Sc × Bool := setBytes (th "BIP0340/challenge" (putBytes r.val ++ pk ++ m))

open Classical in
/-- signature.go:117-231 `schnorrVerify`. Simplification: the check `IsOnCurve` (line 151) cannot fail for a parsed key. -/
noncomputable def schnorrVerify (th : TH) (g : Sig) (hash pk : Bytes) : Except SErr Unit :=
  if hash.length ≠ 32 then .error .hashLen
  else match parseXOnly pk with
  | .error e => .error (.pubKey e)
  | .ok P =>
    let c := challenge th g.r (serializePubKey P) hash
    if c.2 then .error .hashValue
    else
      let R := mulG g.s + mul (-c.1) P
      if R = 0 then .error .rInfinity
      else if oddY R then .error .rOdd
      else if g.r ≠ xOf R then .error .rUnequal
      else .ok ()

open Classical in
/-- signature.go:235-238 `Verify`. -/
noncomputable def verify (th : TH) (g : Sig) (hash : Bytes) (pub : Pt) : Bool :=
  decide (schnorrVerify th g hash (serializePubKey pub) = .ok ())

open Classical in
/-- signature.go:255-349 `schnorrSign`; `fast` is the option FastSign. -/
noncomputable def schnorrSign (th : TH) (d k : Sc) (pub : Pt) (hash : Bytes) (fast : Bool) : Except SErr Sig :=
  let R := mulG k
  let k := if oddY R then -k else k
  let c := challenge th (xOf R) (serializePubKey pub) hash
  if c.2 then .error .hashValue
  else
    let g : Sig := ⟨xOf R, c.1 * d + k⟩
    if fast then .ok g
    else match schnorrVerify th g hash (serializePubKey pub) with
      | .error e => .error e
      | .ok () => .ok g

/-- signature.go:480-506: the nonce of the option CustomNonce. -/
def auxNonce (th : TH) (d : Sc) (pub : Pt) (hash aux : Bytes) : Sc :=
  let t := List.zipWith (· ^^^ ·) (th "BIP0340/aux" aux) (putBytes d.val)
  (setBytes (th "BIP0340/nonce" (t ++ (compressed pub).drop 1 ++ hash))).1

/-- signature.go:525-547: the retries with RFC 6979 nonces. `nonce key hash i` is NonceRFC6979 with the fixed extra data;
the counter is a uint32. Fuel: `none` when more iterations are needed. -/
noncomputable def signLoop (th : TH) (nonce : Bytes → Bytes → UInt32 → Sc) (d : Sc) (pub : Pt) (hash : Bytes) (fast : Bool) :
    Nat → UInt32 → Option (Except SErr Sig)
  | 0, _ => none
  | f + 1, i => match schnorrSign th d (nonce (putBytes d.val) hash i) pub hash fast with
    | .error _ => signLoop th nonce d pub hash fast f (i + 1)
    | .ok g => some (.ok g)

/-- signature.go:402-548 `Sign`: the result and the scalar the caller's private key holds afterwards (`privKeyScalar` is a
pointer into it, line 445, and line 474 negates it in place). `aux` is the option CustomNonce. -/
noncomputable def sign (th : TH) (nonce : Bytes → Bytes → UInt32 → Sc) (fuel : Nat) (d : Sc) (hash : Bytes) (aux : Option Bytes)
    (fast : Bool) : Option (Except SErr Sig × Sc) :=
  if hash.length ≠ 32 then some (.error .hashLen, d)
  else if d = 0 then some (.error .keyZero, d)
  else
    let pub := mulG d
    let d' := if oddY pub then -d else d
    match aux with
    | some a =>
      let k := auxNonce th d' pub hash a
      if k = 0 then some (.error .nonceZero, d') else some (schnorrSign th d' k pub hash fast, d')
    | none => (signLoop th nonce d' pub hash fast fuel 0).map fun r => (r, d')

end Tss.Bip340
