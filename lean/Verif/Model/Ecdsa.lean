import Verif.Model.SecpPubkey
/-
Model of /repo/package/github.com/btcsuite/btcd/btcec/v1/signature.go and privkey.go: ECDSA on S256, its encodings, key recovery.
The curve argument is S256() everywhere except in the parsers, which only use its order. HMAC-SHA256 is a parameter.
-/
namespace Tss.Secp
open Tss

/-- privkey.go:17 `PrivateKey`: the secret D and the public point. -/
structure PrivKey where
  D : Int
  X : Int
  Y : Int

/-- privkey.go:21-35 `PrivKeyFromBytes`, the private key; its public half is the second result. -/
def privKeyFromBytes (pk : Bytes) : PrivKey :=
  let q := s256.scalarBaseMult pk
  ⟨(beNat pk : Int), q.1, q.2⟩

/-- privkey.go:70-73 `Serialize`. -/
def PrivKey.serialize (p : PrivKey) : Bytes := padded 32 (intBytes p.D)

/-- `b[i]` of Go: panics outside the slice. -/
def byteAt {ε : Type} (b : Bytes) (i : Nat) : Res ε UInt8 := Res.ofOption b[i]?

/-- `b[i:j]` of Go; simplification: panics whenever j exceeds the length (Go allows up to the capacity). -/
def sliceOf {ε : Type} (b : Bytes) (i j : Nat) : Res ε Bytes := if i ≤ j ∧ j ≤ b.length then .ok ((b.take j).drop i) else .panic

/-! ### Encoding -/

/-- btcec.go:938 `halfOrder`. -/
def halfOrder : Int := N / 2

/-- signature.go:228-239 `canonicalizeInt`. -/
def canonicalizeInt (v : Int) : Bytes :=
  let b := intBytes v
  let b := if b.length = 0 then [0] else b
  if b.headD 0 &&& 0x80 ≠ 0 then 0 :: b else b

/-- signature.go:47-72 `Serialize`. -/
def sigSerialize (R S : Int) : Bytes :=
  let S' := if S > halfOrder then N - S else S
  let rb := canonicalizeInt R
  let sb := canonicalizeInt S'
  let length := 6 + rb.length + sb.length
  [0x30, UInt8.ofNat (length - 2), 0x02, UInt8.ofNat rb.length] ++ rb ++ [0x02, UInt8.ofNat sb.length] ++ sb

/-- signature.go:83-86 `IsEqual`. -/
def sigIsEqual (a b : Int × Int) : Bool := a.1 == b.1 && a.2 == b.2

/-- The errors of `parseSig`, in the order of signature.go:93-206. -/
inductive SigErr where
  | tooShort | magic | badLength | marker1 | rLength | rNegative | rPadded | marker2 | sLength | sNegative | sPadded | finalLength
  | rSign | sSign | rTooLarge | sTooLarge
deriving DecidableEq

/-- Results of signature.go:245-254 `canonicalPadding`. -/
inductive Pad where
  | negative | excessive | fine
deriving DecidableEq

/-- signature.go:245-254 `canonicalPadding`. -/
def canonicalPadding (b : Bytes) : Res SigErr Pad := do
  let b0 ← byteAt b 0
  if b0 &&& 0x80 = 0x80 then return .negative
  else if b.length > 1 ∧ b0 = 0 then do
    let b1 ← byteAt b 1
    if b1 &&& 0x80 ≠ 0x80 then return .excessive else return .fine
  else return .fine

/-- signature.go:144-152 and 170-178: the padding check of one integer under DER. -/
def checkPad (der : Bool) (b : Bytes) (neg pad : SigErr) : Res SigErr Unit :=
  if der then do
    match ← canonicalPadding b with
    | .negative => .err neg
    | .excessive => .err pad
    | .fine => .ok ()
  else .ok ()

/-- signature.go:93-206 `parseSig`; `n` is the order of the curve passed in. -/
def parseSig (sigStr : Bytes) (n : Int) (der : Bool) : Res SigErr (Int × Int) := do
  if sigStr.length < 8 then Res.err .tooShort else
  if (← byteAt sigStr 0) ≠ 0x30 then Res.err .magic else
  let siglen : UInt8 ← byteAt sigStr 1
  let total := (siglen + 2).toNat
  if total > sigStr.length ∨ total < 8 then Res.err .badLength else
  let sig ← sliceOf sigStr 0 total
  if (← byteAt sig 2) ≠ 0x02 then Res.err .marker1 else
  let rLen := (← byteAt sig 3).toNat
  if rLen ≤ 0 ∨ (rLen : Int) > (sig.length : Int) - 4 - 3 then Res.err .rLength else
  let rBytes ← sliceOf sig 4 (4 + rLen)
  checkPad der rBytes .rNegative .rPadded
  let R : Int := beNat rBytes
  let index := 4 + rLen
  if (← byteAt sig index) ≠ 0x02 then Res.err .marker2 else
  let sLen := (← byteAt sig (index + 1)).toNat
  let index := index + 2
  if sLen ≤ 0 ∨ (sLen : Int) > (sig.length : Int) - index then Res.err .sLength else
  let sBytes ← sliceOf sig index (index + sLen)
  checkPad der sBytes .sNegative .sPadded
  let S : Int := beNat sBytes
  if index + sLen ≠ sig.length then Res.err .finalLength else
  if R ≤ 0 then Res.err .rSign else
  if S ≤ 0 then Res.err .sSign else
  if R ≥ n then Res.err .rTooLarge else
  if S ≥ n then Res.err .sTooLarge else
  return (R, S)

/-! ### Signing -/

/-- signature.go:263-276 `hashToInt` on S256. -/
def hashToInt (hash : Bytes) : Int :=
  let orderBits := bitLen N
  let orderBytes := (orderBits + 7) / 8
  let hash := if hash.length > orderBytes then hash.take orderBytes else hash
  let ret := beNat hash
  let excess : Int := (hash.length : Int) * 8 - orderBits
  if excess > 0 then ((ret >>> excess.toNat : Nat) : Int) else (ret : Int)

/-- signature.go:531-549 `int2octets`. -/
def int2octets (v : Int) (rolen : Nat) : Bytes :=
  let out := intBytes v
  if out.length < rolen then List.replicate (rolen - out.length) 0 ++ out
  else if out.length > rolen then out.drop (out.length - rolen)
  else out

/-- signature.go:552-559 `bits2octets`. -/
def bits2octets (b : Bytes) (rolen : Nat) : Bytes :=
  let z1 := hashToInt b
  let z2 := z1 - N
  if z2 < 0 then int2octets z1 rolen else int2octets z2 rolen

/-- signature.go:504-507, step H2 (the inner loop), with fuel; 32 rounds suffice because every MAC adds at least one byte. -/
def fillT (mac : Bytes → Bytes → Bytes) (k : Bytes) : Nat → Bytes → Bytes → Bytes × Bytes
  | 0, v, t => (v, t)
  | f + 1, v, t => if t.length * 8 < bitLen N then let v := mac k v; fillT mac k f v (t ++ v) else (v, t)

/-- signature.go:499-520, step H, with fuel. -/
def nonceLoop (mac : Bytes → Bytes → Bytes) : Nat → Bytes → Bytes → Option Int
  | 0, _, _ => none
  | f + 1, k, v =>
    let vt := fillT mac k 32 v []
    let secret := hashToInt vt.2
    if secret ≥ 1 ∧ secret < N then some secret
    else
      let k := mac k (vt.1 ++ [0x00])
      nonceLoop mac f k (mac k vt.1)

/-- signature.go:472-521 `nonceRFC6979`; `mac` is HMAC-SHA256 (key first), `fuel` bounds the retries. -/
def nonceRFC6979 (mac : Bytes → Bytes → Bytes) (fuel : Nat) (x : Int) (hash : Bytes) : Option Int :=
  let rolen := (bitLen N + 7) / 8
  let bx := int2octets x rolen ++ bits2octets hash rolen
  let v := List.replicate 32 0x01
  let k := List.replicate 32 0x00
  let k := mac k (v ++ [0x00] ++ bx)
  let v := mac k v
  let k := mac k (v ++ [0x01] ++ bx)
  let v := mac k v
  nonceLoop mac fuel k v

/-- The errors of `signRFC6979`. -/
inductive SignErr where
  | rZero | sZero
deriving DecidableEq

/-- signature.go:447-467: the signature made with a given nonce. `ModInverse` of the nonce is not nil, the order being prime;
otherwise the multiplication would panic. -/
def signWith (k : Int) (D : Int) (hash : Bytes) : Res SignErr (Int × Int) :=
  match modInverse k N with
  | none => .panic
  | some inv =>
    let r := (s256.scalarBaseMult (intBytes k)).1 % N
    if r = 0 then .err .rZero
    else
      let e := hashToInt hash
      let s := (D * r + e) * inv % N
      let s := if s > halfOrder then N - s else s
      if s = 0 then .err .sZero else .ok (r, s)

/-- signature.go:441-468 `signRFC6979` and privkey.go:61-63 `Sign`; none when the fuel of the nonce search is used up. -/
def sign (mac : Bytes → Bytes → Bytes) (fuel : Nat) (D : Int) (hash : Bytes) : Option (Res SignErr (Int × Int)) :=
  (nonceRFC6979 mac fuel D hash).map fun k => signWith k D hash

/-- signature.go:76-78 `Verify`: crypto/ecdsa `Verify` for a curve outside the standard library, by its documentation (ranges, then
u1·G + u2·Q has x-coordinate r modulo the order; the point at infinity is refused). -/
def verify (Q : ECPoint) (hash : Bytes) (r s : Int) : Bool :=
  if r ≤ 0 ∨ s ≤ 0 ∨ r ≥ N ∨ s ≥ N then false
  else
    match modInverse s N with
    | none => false
    | some w =>
      let e := hashToInt hash
      let u1 := e * w % N
      let u2 := w * r % N
      let a := s256.scalarBaseMult (intBytes u1)
      let b := s256.scalarMult Q.x Q.y (intBytes u2)
      let c := s256.add a.1 a.2 b.1 b.2
      if c.1 = 0 ∧ c.2 = 0 then false else c.1 % N == r

/-! ### Key recovery and compact signatures -/

/-- The errors of `recoverKeyFromSignature`. -/
inductive RecErr where
  | rTooLarge | rZero | sTooLarge | sZero | rxTooLarge | decompress (e : PErr) | notInSubgroup
deriving DecidableEq

/-- signature.go:285-361 `recoverKeyFromSignature`. -/
def recoverKey (r s : Int) (msg : Bytes) (iter : Nat) (doChecks : Bool) : Res RecErr ECPoint :=
  if r ≥ N then .err .rTooLarge
  else if r = 0 then .err .rZero
  else if s ≥ N then .err .sTooLarge
  else if s = 0 then .err .sZero
  else
    let Rx := N * ((iter / 2 : Nat) : Int) + r
    if Rx ≥ curveP then .err .rxTooLarge
    else
      match decompress Rx (iter % 2 == 1) with
      | .error e => .err (.decompress e)
      | .ok Ry =>
        let nR := s256.scalarMult Rx Ry (intBytes N)
        if doChecks ∧ (nR.1 ≠ 0 ∨ nR.2 ≠ 0) then .err .notInSubgroup
        else
          let e := hashToInt msg
          match modInverse r N with
          | none => .panic
          | some invr =>
            let invrS := invr * s % N
            let sR := s256.scalarMult Rx Ry (intBytes invrS)
            let e' := (-e) % N * invr % N
            let minuseG := s256.scalarBaseMult (intBytes e')
            let Q := s256.add sR.1 sR.2 minuseG.1 minuseG.2
            .ok ⟨Q.1, Q.2⟩

/-- btcec.go:937, the cofactor. -/
def curveH : Nat := 1

/-- btcec.go:932 -/
def bitSize : Nat := 256

/-- signature.go:389-403: one integer of a compact signature. -/
def compactInt (v : Int) : Bytes :=
  let curvelen := (bitSize + 7) / 8
  let bytelen := (bitLen v + 7) / 8
  (if bytelen < curvelen then List.replicate (curvelen - bytelen) 0 else []) ++ intBytes v

/-- signature.go:383-387: the first byte. -/
def compactHeader (i : Nat) (isCompressed : Bool) : UInt8 :=
  let h := 27 + UInt8.ofNat i
  if isCompressed then h + 4 else h

/-- The errors of `SignCompact`. -/
inductive CompErr where
  | sign (e : SignErr) | noSolution
deriving DecidableEq

/-- signature.go:380-408: the loop of `SignCompact`, `left` iterations from `i` on. -/
def compactLoop (key : PrivKey) (r s : Int) (hash : Bytes) (isCompressed : Bool) : Nat → Nat → Res CompErr Bytes
  | 0, _ => .err .noSolution
  | left + 1, i =>
    match recoverKey r s hash i true with
    | .panic => .panic
    | .err _ => compactLoop key r s hash isCompressed left (i + 1)
    | .ok pk =>
      if pk.x = key.X ∧ pk.y = key.Y then .ok (compactHeader i isCompressed :: (compactInt r ++ compactInt s))
      else compactLoop key r s hash isCompressed left (i + 1)

/-- signature.go:370-411 `SignCompact`. -/
def signCompact (mac : Bytes → Bytes → Bytes) (fuel : Nat) (key : PrivKey) (hash : Bytes) (isCompressed : Bool) :
    Option (Res CompErr Bytes) :=
  (sign mac fuel key.D hash).map fun r =>
    match r with
    | .panic => .panic
    | .err e => .err (.sign e)
    | .ok (r, s) => compactLoop key r s hash isCompressed ((curveH + 1) * 2) 0

/-- The errors of `RecoverCompact`. -/
inductive RCErr where
  | size | recover (e : RecErr)
deriving DecidableEq

/-- signature.go:417-438 `RecoverCompact`. -/
def recoverCompact (signature hash : Bytes) : Res RCErr (ECPoint × Bool) :=
  let bitlen := (bitSize + 7) / 8
  if signature.length ≠ 1 + bitlen * 2 then .err .size
  else
    let h := signature.headD 0
    let iteration := ((h - 27) &&& (~~~(4 : UInt8))).toNat
    let r : Int := beNat ((signature.take (bitlen + 1)).drop 1)
    let s : Int := beNat (signature.drop (bitlen + 1))
    match recoverKey r s hash iteration false with
    | .panic => .panic
    | .err e => .err (.recover e)
    | .ok key => .ok (key, ((h - 27) &&& 4) == 4)

/-- ciphering.go:46-49 `GenerateSharedSecret`. -/
def sharedSecret (D : Int) (Q : ECPoint) : Bytes := intBytes (s256.scalarMult Q.x Q.y (intBytes D)).1

end Tss.Secp
