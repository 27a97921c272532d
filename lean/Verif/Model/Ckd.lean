import Verif.Model.Ed25519
import Verif.Model.Text
/-
Model of /repo/crypto/ckd: child_key_derivation_eddsa.go and child_key_derivation.go.  SHA-256/RIPEMD-160
(`hash160`), HMAC-SHA512 and double SHA-256 are parameters.  Log output is not modelled.
-/
namespace Tss.Ckd
open Tss Text

/-- Error returns of the package (texts differ only in wording). -/
inductive Err where
  | indexHardened
  | maxDepth
  | pubOffCurve
  | invalidDerived
  | invalidChild
  | addOffCurve
  | badNumber
  | negative
  | keyLength (n : Nat)
  | hardenUnsupported
  | invalidExtendedKey
  | badPubKey
  deriving DecidableEq, Repr

/-- The hash functions and the curve. -/
structure Env where
  curve : Curve
  hash160 : Bytes → Bytes
  hmac512 : Bytes → Bytes → Bytes

/-- child_key_derivation.go:48 `HardenedKeyStart`. -/
def hardenedKeyStart : Nat := 0x80000000
/-- child_key_derivation.go:51 `maxDepth`. -/
def maxDepth : Nat := 255

/-- child_key_derivation.go:167-175 `paddedBytes`: longer inputs are returned unchanged. -/
def paddedBytes (size : Nat) (src : Bytes) : Bytes :=
  if src.length < size then List.replicate (size - src.length) 0 ++ src else src

/-- child_key_derivation.go:178-186 `serializeCompressed`. -/
def serializeCompressed (x y : Int) : Bytes :=
  (if y % 2 = 1 then 3 else 2) :: paddedBytes 32 (intBytes x)

/-- child_key_derivation.go:377-381 `uint32ToBytes`. -/
def uint32ToBytes (i : Nat) : Bytes := beFixed 4 i

/-- child_key_derivation_eddsa.go:53-62 `ExtendedKeyD`; a nil private key is empty. -/
structure KeyD where
  pub : ECPoint
  deduce : ECPoint
  depth : Nat
  childIndex : Nat
  priv : Bytes
  chainCode : Bytes
  parentFP : Bytes
  version : Bytes
  deriving DecidableEq

/-- child_key_derivation_eddsa.go:64-86 `NewExtendKeyD`. -/
def newExtendKeyD (E : Env) (priv : Bytes) (pub deduce : ECPoint) (index depth : Nat) (chainCode : Bytes) : KeyD :=
  { priv := priv, pub := pub, deduce := deduce, depth := depth, childIndex := index, chainCode := chainCode,
    parentFP := (E.hash160 (serializeCompressed deduce.x deduce.y)).take 4, version := [0] }

/-- child_key_derivation_eddsa.go:130-194 `DeriveChildKeyD`.  A nil deltaG (base multiple off the curve)
panics at line 166. -/
def deriveChildKeyD (E : Env) (index : Nat) (harden : Bool) (pk : KeyD) : Res Err (Int × KeyD) :=
  if index ≥ hardenedKeyStart then .err .indexHardened
  else if pk.depth = maxDepth then .err .maxDepth
  else
    let pubBytes := serializeCompressed pk.deduce.x pk.deduce.y
    let index' := if harden then index ||| 0x80000000 else index
    let data := (if harden then 0 :: pk.priv else pubBytes) ++ uint32ToBytes index'
    let ilr := E.hmac512 pk.chainCode data
    let ilNum : Int := (beNat (ilr.take 32) : Int) % E.curve.N
    if ilNum ≥ E.curve.N ∨ ilNum = 0 then .err .invalidDerived
    else match ECPoint.scalarBaseMult E.curve ilNum with
      | none => .panic
      | some deltaG =>
        if deltaG.x = 0 ∨ deltaG.y = 0 then .err .invalidChild
        else match ECPoint.add E.curve pk.pub deltaG with
          | none => .err .addOffCurve
          | some child =>
            match ECPoint.add E.curve pk.deduce deltaG with
            | none => .err .addOffCurve
            | some deduce =>
              let x := (ilNum + (beNat pk.priv : Int)) % E.curve.N
              .ok (ilNum, {
                priv := intBytes x, pub := child, deduce := deduce, depth := pk.depth + 1,
                childIndex := index', chainCode := ilr.drop 32, parentFP := (E.hash160 pubBytes).take 4,
                version := pk.version })

/-- child_key_derivation_eddsa.go:233-290 `DeriveChildPubKeyD`. -/
def deriveChildPubKeyD (E : Env) (index : Nat) (pk : KeyD) : Res Err (Int × KeyD) :=
  if index ≥ hardenedKeyStart then .err .indexHardened
  else if pk.depth = maxDepth then .err .maxDepth
  else
    let pubBytes := serializeCompressed pk.deduce.x pk.deduce.y
    let data := pubBytes ++ uint32ToBytes index
    let ilr := E.hmac512 pk.chainCode data
    let ilNum : Int := (beNat (ilr.take 32) : Int) % E.curve.N
    if ilNum ≥ E.curve.N ∨ ilNum = 0 then .err .invalidDerived
    else match ECPoint.scalarBaseMult E.curve ilNum with
      | none => .panic
      | some deltaG =>
        if deltaG.x = 0 ∨ deltaG.y = 0 then .err .invalidChild
        else match ECPoint.add E.curve pk.pub deltaG with
          | none => .err .addOffCurve
          | some child =>
            match ECPoint.add E.curve pk.deduce deltaG with
            | none => .err .addOffCurve
            | some deduce =>
              .ok (ilNum, {
                priv := [], pub := child, deduce := deduce, depth := pk.depth + 1,
                childIndex := index, chainCode := ilr.drop 32, parentFP := (E.hash160 pubBytes).take 4,
                version := pk.version })

/-- child_key_derivation_eddsa.go:92-95 (also 202-205 and 403-406, 444-447): the components still to be
derived; too few components panic. -/
def pathParts (depth : Nat) (path : Bytes) : Option (List Bytes) :=
  let parts := split 47 path
  if depth > 0 then (if depth > parts.length then none else some (parts.drop depth)) else some parts

/-- child_key_derivation_eddsa.go:97-111: one component: apostrophe, number, sign, conversion to uint32.
An empty component panics (slice bound -1). -/
def parsePart (part : Bytes) : Res Err (Nat × Bool) :=
  match part.getLast? with
  | none => .panic
  | some last =>
    let harden := last = 39
    let body := if harden then part.dropLast else part
    match atoi body with
    | none => .err .badNumber
    | some idx => if idx < 0 then .err .negative else .ok (idx.toNat % 2 ^ 32, harden)

/-- child_key_derivation_eddsa.go:96-117: the loop over the components. -/
def derivePrivLoopD (E : Env) : KeyD → List Bytes → Res Err KeyD
  | pk, [] => .ok pk
  | pk, part :: t =>
    match parsePart part with
    | .panic => .panic
    | .err e => .err e
    | .ok (idx, harden) =>
      match deriveChildKeyD E idx harden pk with
      | .panic => .panic
      | .err e => .err e
      | .ok (_, child) => derivePrivLoopD E child t

/-- child_key_derivation_eddsa.go:118-126 (and 427-434): left-pad to 32 bytes. -/
def padKey (b : Bytes) : Bytes := if b.length < 32 then List.replicate (32 - b.length) 0 ++ b else b

/-- child_key_derivation_eddsa.go:89-126 `DerivePrivateKeyForPathD`: the private key and the serialized
Edwards public key. -/
def derivePrivateKeyForPathD (E : Env) (pk : KeyD) (path : Bytes) : Res Err (Bytes × Bytes) :=
  match pathParts pk.depth path with
  | none => .panic
  | some parts =>
    match derivePrivLoopD E pk parts with
    | .panic => .panic
    | .err e => .err e
    | .ok ext =>
      let key := padKey ext.priv
      if key.length ≠ 32 then .err (.keyLength key.length)
      else .ok (key, Ed.ecPointToEncodedBytes ext.pub.x ext.pub.y)

/-- child_key_derivation_eddsa.go:206-221: one component of a public derivation. -/
def parsePartPub (part : Bytes) : Res Err Nat :=
  match part.getLast? with
  | none => .panic
  | some last =>
    if last = 39 then .err .hardenUnsupported
    else match atoi part with
      | none => .err .badNumber
      | some idx => if idx < 0 then .err .negative else .ok (idx.toNat % 2 ^ 32)

/-- child_key_derivation_eddsa.go:206-226: the loop over the components. -/
def derivePubLoopD (E : Env) : KeyD → List Bytes → Res Err KeyD
  | pk, [] => .ok pk
  | pk, part :: t =>
    match parsePartPub part with
    | .panic => .panic
    | .err e => .err e
    | .ok idx =>
      match deriveChildPubKeyD E idx pk with
      | .panic => .panic
      | .err e => .err e
      | .ok (_, child) => derivePubLoopD E child t

/-- child_key_derivation_eddsa.go:199-229 `DerivePublicKeyForPathD`. -/
def derivePublicKeyForPathD (E : Env) (pk : KeyD) (path : Bytes) : Res Err ECPoint :=
  match pathParts pk.depth path with
  | none => .panic
  | some parts =>
    match derivePubLoopD E pk parts with
    | .panic => .panic
    | .err e => .err e
    | .ok ext =>
      match ECPoint.new E.curve ext.pub.x ext.pub.y with
      | none => .err .pubOffCurve
      | some q => .ok q

/-- child_key_derivation_eddsa.go:20-37 `DeriveEddsaChildPrivKey`: FillBytes panics beyond 32 bytes.
`E.curve` is `edwards.Edwards()`. -/
def deriveEddsaChildPrivKey (E : Env) (priv : Int) (pub deduce : ECPoint) (code : Bytes) (path : Bytes) :
    Res Err (Bytes × Bytes) :=
  match fillBytes 32 priv with
  | none => .panic
  | some b => derivePrivateKeyForPathD E (newExtendKeyD E b pub deduce 0 0 code) path

/-- child_key_derivation_eddsa.go:39-52 `DeriveEddsaChildPubKey`: on an error it formats a nil error value,
which panics. -/
def deriveEddsaChildPubKey (E : Env) (src deduce : ECPoint) (code : Bytes) (path : Bytes) : Res Err ECPoint :=
  match derivePublicKeyForPathD E (newExtendKeyD E [] src deduce 0 0 code) path with
  | .ok q => .ok q
  | .err _ => .panic
  | .panic => .panic

/-! ### The secp256k1 variant (child_key_derivation.go) -/

/-- child_key_derivation.go:29-38 `ExtendedKey`; a public key with nil coordinates is none. -/
structure Key where
  pub : Option ECPoint
  deduce : Option ECPoint
  depth : Nat
  childIndex : Nat
  priv : Bytes
  chainCode : Bytes
  parentFP : Bytes
  version : Bytes
  deriving DecidableEq

/-- crypto/ecpoint.go:36-41 `NewECPoint` of possibly nil coordinates. -/
def newPoint (c : Curve) : Option ECPoint → Option ECPoint
  | none => none
  | some p => ECPoint.new c p.x p.y

/-- child_key_derivation.go:208-293 `DeriveChildKey`; `sN` is `btcec.S256().N`, used for the private key
whatever curve is passed. -/
def deriveChildKey (E : Env) (sN : Int) (index : Nat) (harden : Bool) (pk : Key) : Res Err (Int × Key) :=
  if index ≥ hardenedKeyStart then .err .indexHardened
  else if pk.depth = maxDepth then .err .maxDepth
  else match newPoint E.curve pk.pub with
    | none => .err .pubOffCurve
    | some cryptoPk =>
      match newPoint E.curve pk.deduce with
      | none => .err .pubOffCurve
      | some deducePk =>
        let pubBytes := serializeCompressed deducePk.x deducePk.y
        let index' := if harden then index ||| 0x80000000 else index
        let data := (if harden then 0 :: pk.priv else pubBytes) ++ uint32ToBytes index'
        let ilr := E.hmac512 pk.chainCode data
        let ilNum : Int := (beNat (ilr.take 32) : Int)
        if ilNum ≥ E.curve.N ∨ ilNum = 0 then .err .invalidDerived
        else match ECPoint.scalarBaseMult E.curve ilNum with
          | none => .panic
          | some deltaG =>
            if deltaG.x = 0 ∨ deltaG.y = 0 then .err .invalidChild
            else match ECPoint.add E.curve cryptoPk deltaG with
              | none => .err .addOffCurve
              | some child =>
                match ECPoint.add E.curve deducePk deltaG with
                | none => .err .addOffCurve
                | some deduce =>
                  let x := (ilNum + (beNat pk.priv : Int)) % sN
                  .ok (ilNum, {
                    priv := intBytes x, pub := some child, deduce := some deduce, depth := pk.depth + 1,
                    childIndex := index', chainCode := ilr.drop 32, parentFP := (E.hash160 pubBytes).take 4,
                    version := pk.version })

/-- child_key_derivation.go:297-375 `DeriveChildPubKey`. -/
def deriveChildPubKey (E : Env) (index : Nat) (pk : Key) : Res Err (Int × Key) :=
  if index ≥ hardenedKeyStart then .err .indexHardened
  else if pk.depth = maxDepth then .err .maxDepth
  else match newPoint E.curve pk.pub with
    | none => .err .pubOffCurve
    | some cryptoPk =>
      match newPoint E.curve pk.deduce with
      | none => .err .pubOffCurve
      | some deducePk =>
        let pubBytes := serializeCompressed deducePk.x deducePk.y
        let data := pubBytes ++ uint32ToBytes index
        let ilr := E.hmac512 pk.chainCode data
        let ilNum : Int := (beNat (ilr.take 32) : Int)
        if ilNum ≥ E.curve.N ∨ ilNum = 0 then .err .invalidDerived
        else match ECPoint.scalarBaseMult E.curve ilNum with
          | none => .panic
          | some deltaG =>
            if deltaG.x = 0 ∨ deltaG.y = 0 then .err .invalidChild
            else match ECPoint.add E.curve cryptoPk deltaG with
              | none => .err .addOffCurve
              | some child =>
                match ECPoint.add E.curve deducePk deltaG with
                | none => .err .addOffCurve
                | some deduce =>
                  .ok (ilNum, {
                    priv := [], pub := some child, deduce := some deduce, depth := pk.depth + 1,
                    childIndex := index, chainCode := ilr.drop 32, parentFP := (E.hash160 pubBytes).take 4,
                    version := pk.version })

/-- child_key_derivation.go:192-202: the loop of `DeriveChildKeyFromHierarchy`; a zero modulus panics. -/
def hierarchyLoop (E : Env) (sN mod : Int) : Int → Key → List Nat → Res Err (Int × Key)
  | il, pk, [] => .ok (il, pk)
  | il, pk, i :: t =>
    match deriveChildKey E sN i false pk with
    | .panic => .panic
    | .err e => .err e
    | .ok (ilNum, child) =>
      if mod = 0 then .panic else hierarchyLoop E sN mod ((ilNum + il) % mod) child t

/-- child_key_derivation.go:188-205 `DeriveChildKeyFromHierarchy`. -/
def deriveChildKeyFromHierarchy (E : Env) (sN : Int) (indices : List Nat) (pk : Key) (mod : Int) :
    Res Err (Int × Key) := hierarchyLoop E sN mod 0 pk indices

/-- child_key_derivation.go:383-397 `NewExtendKey`. -/
def newExtendKey (E : Env) (priv : Bytes) (pub deduce : ECPoint) (index depth : Nat) (chainCode : Bytes) : Key :=
  { priv := priv, pub := some pub, deduce := some deduce, depth := depth, childIndex := index,
    chainCode := chainCode, parentFP := (E.hash160 (serializeCompressed deduce.x deduce.y)).take 4, version := [0] }

/-- child_key_derivation.go:405-425: the loop over the components. -/
def derivePrivLoop (E : Env) (sN : Int) : Key → List Bytes → Res Err Key
  | pk, [] => .ok pk
  | pk, part :: t =>
    match parsePart part with
    | .panic => .panic
    | .err e => .err e
    | .ok (idx, harden) =>
      match deriveChildKey E sN idx harden pk with
      | .panic => .panic
      | .err e => .err e
      | .ok (_, child) => derivePrivLoop E sN child t

/-- child_key_derivation.go:401-438 `DerivePrivateKeyForPath`; `E.curve` is `tss.S256()`.  nil public key
coordinates panic in the final serialization. -/
def derivePrivateKeyForPath (E : Env) (sN : Int) (pk : Key) (path : Bytes) : Res Err (Bytes × Bytes) :=
  match pathParts pk.depth path with
  | none => .panic
  | some parts =>
    match derivePrivLoop E sN pk parts with
    | .panic => .panic
    | .err e => .err e
    | .ok ext =>
      let key := padKey ext.priv
      if key.length ≠ 32 then .err (.keyLength key.length)
      else match ext.pub with
        | none => .panic
        | some p => .ok (key, serializeCompressed p.x p.y)

/-- child_key_derivation.go:446-466: the loop over the components. -/
def derivePubLoop (E : Env) : Key → List Bytes → Res Err Key
  | pk, [] => .ok pk
  | pk, part :: t =>
    match parsePartPub part with
    | .panic => .panic
    | .err e => .err e
    | .ok idx =>
      match deriveChildPubKey E idx pk with
      | .panic => .panic
      | .err e => .err e
      | .ok (_, child) => derivePubLoop E child t

/-- child_key_derivation.go:442-472 `DerivePublicKeyForPath`. -/
def derivePublicKeyForPath (E : Env) (pk : Key) (path : Bytes) : Res Err ECPoint :=
  match pathParts pk.depth path with
  | none => .panic
  | some parts =>
    match derivePubLoop E pk parts with
    | .panic => .panic
    | .err e => .err e
    | .ok ext =>
      match newPoint E.curve ext.pub with
      | none => .err .pubOffCurve
      | some q => .ok q

end Tss.Ckd
