import Verif.Model.Bip340
import Mathlib.Data.List.Sort
import Mathlib.Data.UInt
/-
Model of /repo/package/github.com/btcsuite/btcd/btcec/v2/schnorr/musig2: keys.go, nonces.go, sign.go.
Points, scalars and the tagged hash as in Verif.Model.Bip340.
-/
namespace Tss.Musig2
open Tss Tss.Bip340
open Tss.Secp (E p ord G pt)

/-! ### keys.go -/

/-- keys.go:41-47 `Less`: bytes.Compare of the x-only encodings. -/
def keyLess (a b : Pt) : Bool := decide (serializePubKey a < serializePubKey b)

/-- keys.go:62-70 `sortKeys`; it sorts the caller's slice in place. Simplification: sort.Sort leaves the order of keys with equal
encodings (a key and its opposite) open, the model keeps their original order. -/
def sortKeys (keys : List Pt) : List Pt := keys.insertionSort (fun a b => !keyLess b a)

/-- `if sort { keys = sortKeys(keys) }`, keys.go:77-79, 133-135, 357-359. -/
def maybeSort (sort : Bool) (keys : List Pt) : List Pt := if sort then sortKeys keys else keys

/-- keys.go:76-91 `keyHashFingerprint`, of the sorted keys. -/
def keyHashFingerprint (th : TH) (keys : List Pt) : Bytes := th "KeyAgg list" (keys.map serializePubKey).flatten

/-- keys.go:95-100 `keyBytesEqual`. -/
def keyBytesEqual (a b : Pt) : Bool := serializePubKey a == serializePubKey b

/-- keys.go:132-149 `secondUniqueKeyIndex`, of the sorted keys; `none` is -1. -/
def secondUniqueKeyIndex (keys : List Pt) : Option Nat :=
  match keys with
  | [] => none
  | k0 :: _ => keys.findIdx? (fun k => !keyBytesEqual k k0)

/-- keys.go:105-128 `aggregationCoefficient`. Simplification: an index outside the set counts as -1 (the code panics; it passes an index
computed by secondUniqueKeyIndex from the same set). -/
def aggregationCoefficient (th : TH) (keys : List Pt) (target : Pt) (keysHash : Bytes) (second : Option Nat) : Sc :=
  match second.bind (keys[·]?) with
  | some k => if keyBytesEqual k target then 1 else (setBytes (th "KeyAgg coefficient" (keysHash ++ serializePubKey target))).1
  | none => (setBytes (th "KeyAgg coefficient" (keysHash ++ serializePubKey target))).1

/-- keys.go:154-161 `KeyTweakDesc`; the tweak has 32 bytes. -/
structure Tweak where
  tweak : Bytes
  xOnly : Bool

/-- keys.go:26-32. -/
inductive TErr where
  | isInfinity | overflows
deriving DecidableEq

/-- keys.go:264-269 `hasEvenY`. -/
def hasEvenY (P : Pt) : Bool := (compressed P).headD 0 == 2

open Classical in
/-- keys.go:276-325 `tweakKey`: the new key, parity accumulator and tweak accumulator. Simplification: `keyJ == infinityPoint`
compares representations; it is taken to say that the sum is the neutral element (they differ only for an aggregate that was
already at infinity, tweaked by zero). -/
noncomputable def tweakKey (keyJ : Pt) (parityAcc : Sc) (tweak : Bytes) (tweakAcc : Sc) (xOnly : Bool) : Except TErr (Pt × Sc × Sc) :=
  let parityFactor : Sc := if xOnly && !hasEvenY keyJ then -1 else 1
  let t := setBytes tweak
  if t.2 then .error .overflows
  else
    let q := mulG t.1 + mul parityFactor keyJ
    if q = 0 then .error .isInfinity
    else .ok (q, parityAcc * parityFactor, tweakAcc * parityFactor + t.1)

/-- keys.go:443-451: the tweaks one after the other. -/
noncomputable def applyTweaks : List Tweak → Pt × Sc × Sc → Except TErr (Pt × Sc × Sc)
  | [], a => .ok a
  | t :: ts, (q, g, a) => match tweakKey q g t.tweak a t.xOnly with
    | .error e => .error e
    | .ok r => applyTweaks ts r

/-- The tweak options: WithKeyTweaks (keys.go:209-213), WithTaprootKeyTweak (223-236), WithBIP86KeyTweak (242-252), or none. -/
inductive TweakOpt where
  | plain (ts : List Tweak)
  | taproot (root : Bytes)
  | bip86

/-- keys.go:329-338 `AggregateKey`, with the two accumulators that AggregateKeys also returns. -/
structure Agg where
  final : Pt
  pre : Pt
  parityAcc : Sc
  tweakAcc : Sc

/-- keys.go:225-226: `copy` of the root into 32 bytes. -/
def pad32 (b : Bytes) : Bytes := (b ++ List.replicate 32 0).take 32

/-- keys.go:378-396: the sum of a_i·P_i. -/
def sumKeys (th : TH) (keys : List Pt) : Pt :=
  let h := keyHashFingerprint th keys
  let i := secondUniqueKeyIndex keys
  keys.foldl (fun acc key => acc + mul (aggregationCoefficient th keys key h i) key) 0

/-- keys.go:406-432: the tweaks to apply; under the taproot options the first one is H(TapTweak, x(P) ‖ root), and an aggregate
that is not a key (infinity) makes SerializePubKey dereference nil: panic. -/
def tweaksOf (th : TH) (pre : Pt) : TweakOpt → Option (List Tweak)
  | .plain ts => some ts
  | .taproot root => match parseXOnly (serializePubKey pre) with
    | .error _ => none
    | .ok key => some [⟨th "TapTweak" (serializePubKey key ++ pad32 root), true⟩]
  | .bip86 => match parseXOnly (serializePubKey pre) with
    | .error _ => none
    | .ok key => some [⟨th "TapTweak" (serializePubKey key ++ []), true⟩]

/-- keys.go:345-460 `AggregateKeys`. Simplification: the options WithKeysHash and WithUniqueKeyIndex are used as the package itself
uses them, with the values that would be computed. -/
noncomputable def aggregateKeys (th : TH) (keys : List Pt) (sort : Bool) (opt : TweakOpt) : Res TErr Agg :=
  let keys := maybeSort sort keys
  let pre := sumKeys th keys
  match tweaksOf th pre opt with
  | none => .panic
  | some ts => match applyTweaks ts (pre, 1, 0) with
    | .error e => .err e
    | .ok (q, g, a) => .ok ⟨q, pre, g, a⟩

/-! ### nonces.go -/

/-- nonces.go:58-85 `secNonceToPubNonce`, of 64 bytes. -/
def secNonceToPubNonce (secNonce : Bytes) : Bytes :=
  compressed (mulG (setBytes (secNonce.take 32)).1) ++ compressed (mulG (setBytes (secNonce.drop 32)).1)

/-- nonces.go:93-114 `nonceGenOpts` without the reader. -/
structure GenOpts where
  secretKey : Bytes
  combinedKey : Bytes
  msg : Bytes
  auxInput : Bytes

/-- nonces.go:232-270 `genNonceAuxBytes`: the string hashed; the length prefixes have one, one and four bytes and wrap around. -/
def nonceInput (rand : Bytes) (i : Nat) (o : GenOpts) : Bytes :=
  rand ++ (UInt8.ofNat o.combinedKey.length :: o.combinedKey) ++ (UInt8.ofNat o.msg.length :: o.msg) ++
    (beFixed 4 o.auxInput.length ++ o.auxInput) ++ [UInt8.ofNat i]

/-- nonces.go:281-295: the 32 random bytes, masked with the secret key if one of 32 bytes is given. -/
def maskRand (th : TH) (rand : Bytes) (o : GenOpts) : Bytes :=
  if o.secretKey.length = 32 then List.zipWith (· ^^^ ·) o.secretKey (th "MuSig/aux" rand) else rand

/-- nonces.go:274-324 `GenNonces`: the pair (PubNonce, SecNonce); `rand` is what the reader gave. -/
def genNonces (th : TH) (rand : Bytes) (o : GenOpts) : Bytes × Bytes :=
  let r := maskRand th rand o
  let k1 := (setBytes (th "MuSig/nonce" (nonceInput r 0 o))).1
  let k2 := (setBytes (th "MuSig/nonce" (nonceInput r 1 o))).1
  let sec := putBytes k1.val ++ putBytes k2.val
  (secNonceToPubNonce sec, sec)

/-- nonces.go:282-285: one `Read` of the caller's reader into a zeroed buffer of 32 bytes; `got` is what it delivered, if it did not fail. -/
def genNoncesFrom (th : TH) (got : Option Bytes) (o : GenOpts) : Option (Bytes × Bytes) := got.map fun b => genNonces th (pad32 b) o

/-- nonces.go:337-350: parse every nonce. -/
def parseAll : List Bytes → Except PErr (List Pt)
  | [] => .ok []
  | b :: bs => match parseJacobian b with
    | .error e => .error e
    | .ok P => match parseAll bs with
      | .error e => .error e
      | .ok l => .ok (P :: l)

/-- nonces.go:334-362 `combineNonces`. -/
def combineNonces (slices : List Bytes) : Except PErr Pt :=
  match parseAll slices with
  | .error e => .error e
  | .ok l => .ok (l.foldl (· + ·) 0)

/-- nonces.go:328-389 `AggregateNonces`, of strings of 66 bytes. -/
noncomputable def aggregateNonces (pubNonces : List Bytes) : Except PErr Bytes :=
  match combineNonces (pubNonces.map (·.take 33)) with
  | .error e => .error e
  | .ok a => match combineNonces (pubNonces.map (·.drop 33)) with
    | .error e => .error e
    | .ok b => .ok (jacobianToBytes a ++ jacobianToBytes b)

/-! ### sign.go -/

/-- sign.go:49-53 `PartialSignature`. -/
structure PSig where
  S : Sc
  R : Pt

/-- sign.go:67-76 `Encode`. -/
def PSig.encode (q : PSig) : Bytes := putBytes q.S.val

/-- sign.go:80-94 `Decode`: the scalar read and whether an error is returned; a reader with fewer than 32 bytes gives no error
and the scalar zero (the code returns nil instead of err). -/
def decodeS (b : Bytes) : Sc × Bool :=
  if b.length < 32 then (0, false) else setBytes (b.take 32)

/-- sign.go:102-128 `signOptions`. -/
structure SignOpts where
  fast : Bool
  sort : Bool
  tweaks : List Tweak
  taproot : Option Bytes
  bip86 : Bool

/-- sign.go:211-222 and 410-421: the tweak option passed to AggregateKeys. -/
def SignOpts.tweakOpt (o : SignOpts) : TweakOpt :=
  if o.bip86 then .bip86
  else match o.taproot with
    | some r => .taproot r
    | none => .plain o.tweaks

/-- The errors of sign.go. -/
inductive MErr where
  | tweak (e : TErr) | nonce (e : PErr) | secretNonceZero | privKeyZero | sigInvalid | pubKey (e : PErr)
deriving DecidableEq

/-- sign.go:233-246, 432-443: the factor b. -/
def nonceBlinder (th : TH) (combinedNonce : Bytes) (Q : Pt) (msg : Bytes) : Sc :=
  (setBytes (th "MuSig/noncecoef" (combinedNonce ++ serializePubKey Q ++ msg))).1

/-- sign.go:328-339, 506-517, 668-679: the challenge, reduced without a check. -/
def challengeOf (th : TH) (R Q : Pt) (msg : Bytes) : Sc :=
  (setBytes (th "BIP0340/challenge" (serializePubKey R ++ serializePubKey Q ++ msg))).1

open Classical in
/-- sign.go:269-273, 481-486: a nonce at infinity is replaced by the generator. -/
noncomputable def effNonce (R : Pt) : Pt := if R = 0 then G else R

open Classical in
/-- sign.go:385-561 `verifyPartialSig`; `S` is the scalar of the partial signature. -/
noncomputable def verifyPartialSig (th : TH) (S : Sc) (pubNonce combinedNonce : Bytes) (keySet : List Pt) (pubKey msg : Bytes)
    (o : SignOpts) : Res MErr Unit :=
  let keys := maybeSort o.sort keySet
  match aggregateKeys th keySet o.sort o.tweakOpt with
  | .panic => .panic
  | .err e => .err (.tweak e)
  | .ok ag =>
    let b := nonceBlinder th combinedNonce ag.final msg
    match parseJacobian (combinedNonce.take 33), parseJacobian (combinedNonce.drop 33) with
    | .error e, _ => .err (.nonce e)
    | .ok _, .error e => .err (.nonce e)
    | .ok r1, .ok r2 =>
      match parseJacobian (pubNonce.take 33), parseJacobian (pubNonce.drop 33) with
      | .error e, _ => .err (.nonce e)
      | .ok _, .error e => .err (.nonce e)
      | .ok n1, .ok n2 =>
        let nonce := effNonce (r1 + mul b r2)
        let pubNonceJ := n1 + mul b n2
        let pubNonceJ := if oddY nonce then -pubNonceJ else pubNonceJ
        let e := challengeOf th nonce ag.final msg
        match parseXOnly pubKey with
        | .error x => .err (.pubKey x)
        | .ok signingKey =>
          let a := aggregationCoefficient th keys signingKey (keyHashFingerprint th keys) (secondUniqueKeyIndex keys)
          let parity : Sc := if (compressed ag.final).headD 0 == 3 then -1 else 1
          let signKey := mul (parity * ag.parityAcc) signingKey
          if mulG S = mul (e * a) signKey + pubNonceJ then .ok () else .err .sigInvalid

/-- sign.go:371-380 `Verify`; a panic is a panic of the caller. -/
noncomputable def verifyPartial (th : TH) (S : Sc) (pubNonce combinedNonce : Bytes) (keySet : List Pt) (signingKey : Pt) (msg : Bytes)
    (o : SignOpts) : Res MErr Unit :=
  verifyPartialSig th S pubNonce combinedNonce keySet (serializePubKey signingKey) msg o

open Classical in
/-- sign.go:193-366 `Sign`; `d` is the private key. -/
noncomputable def sign (th : TH) (secNonce : Bytes) (d : Sc) (combinedNonce : Bytes) (pubKeys : List Pt) (msg : Bytes) (o : SignOpts) :
    Res MErr PSig :=
  let keys := maybeSort o.sort pubKeys
  match aggregateKeys th pubKeys o.sort o.tweakOpt with
  | .panic => .panic
  | .err e => .err (.tweak e)
  | .ok ag =>
    let b := nonceBlinder th combinedNonce ag.final msg
    match parseJacobian (combinedNonce.take 33), parseJacobian (combinedNonce.drop 33) with
    | .error e, _ => .err (.nonce e)
    | .ok _, .error e => .err (.nonce e)
    | .ok r1, .ok r2 =>
      let nonce := effNonce (r1 + mul b r2)
      let k1 := (setBytes (secNonce.take 32)).1
      let k2 := (setBytes (secNonce.drop 32)).1
      if k1 = 0 ∨ k2 = 0 then .err .secretNonceZero
      else
        let k1 := if oddY nonce then -k1 else k1
        let k2 := if oddY nonce then -k2 else k2
        if d = 0 then .err .privKeyZero
        else
          let pubKey := mulG d
          let parityCombinedKey : Sc := if (compressed ag.final).headD 0 == 3 then -1 else 1
          let paritySignKey : Sc := if (compressed pubKey).headD 0 == 3 then -1 else 1
          let d' := d * parityCombinedKey * paritySignKey * ag.parityAcc
          let e := challengeOf th nonce ag.final msg
          let a := aggregationCoefficient th keys pubKey (keyHashFingerprint th keys) (secondUniqueKeyIndex keys)
          let s := k1 + k2 * b + e * a * d'
          let sig : PSig := ⟨s, nonce⟩
          if o.fast then .ok sig
          else match verifyPartial th s (secNonceToPubNonce secNonce) combinedNonce pubKeys pubKey msg o with
            | .ok () => .ok sig
            | .err _ => .err .sigInvalid
            | .panic => .panic

/-- sign.go:569-575 `combineOptions`, when one of the three options was given. -/
structure CombOpts where
  msg : Bytes
  combinedKey : Pt
  tweakAcc : Sc

/-- sign.go:587-599, 608-620, 630-642: the three options; the error of AggregateKeys is dropped and the nil key dereferenced. -/
noncomputable def withCombine (th : TH) (msg : Bytes) (keys : List Pt) (sort : Bool) (opt : TweakOpt) : Res TErr CombOpts :=
  match aggregateKeys th keys sort opt with
  | .ok ag => .ok ⟨msg, ag.final, ag.tweakAcc⟩
  | _ => .panic

/-- sign.go:646-704 `CombineSigs`. -/
def combineSigs (th : TH) (combinedNonce : Pt) (partials : List Sc) (o : Option CombOpts) : Sig :=
  let sum := partials.foldl (· + ·) 0
  let s := match o with
    | none => sum
    | some c =>
      let parityFactor : Sc := if (compressed c.combinedKey).headD 0 == 3 then -1 else 1
      sum + challengeOf th combinedNonce c.combinedKey c.msg * c.tweakAcc * parityFactor
  ⟨xOf combinedNonce, s⟩

end Tss.Musig2
