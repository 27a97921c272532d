import Verif.Model.EC
/-
Model of /repo/crypto/schnorr/schnorr_proof.go.
-/
namespace Tss.Schnorr
open Tss ECPoint

/-- crypto/schnorr/schnorr_proof.go:143-146 `Prove`. `q ≠ 0`. -/
def Prove (q committedSecret challenge secret : Int) : Int :=
  (committedSecret + challenge * secret) % q

/-- crypto/schnorr/schnorr_proof.go:148-157 `Proof.Verify`.  A nil `tG` or `Xc` (off-curve result) is
dereferenced and panics. -/
def Verify (c : Curve) (proof : Int) (commitedA publicX : ECPoint) (challenge : Int) : Res Unit Bool :=
  let tG := scalarBaseMult c proof
  match scalarMult c publicX challenge with
  | none => .panic
  | some Xc =>
    match ECPoint.add c commitedA Xc with
    | none => .ok false
    | some aXc =>
      match tG with
      | none => .panic
      | some tG => .ok (decide (aXc.x = tG.x) && decide (aXc.y = tG.y))

/-- crypto/schnorr/schnorr_proof.go:19-22 `ZKProof`. -/
structure ZKProof where
  Alpha : ECPoint
  T : Int
  deriving DecidableEq

/-- The Fiat-Shamir challenge of crypto/schnorr/schnorr_proof.go:47-51 and 68-72. -/
def zkChallenge (H : Bytes → Bytes) (c : Curve) (session : Bytes) (X alpha : ECPoint) : Int :=
  (Common.SHA512_256i_TAGGED H session
    [some X.x, some X.y, some c.Gx, some c.Gy, some alpha.x, some alpha.y]).getD 0 % c.N

/-- crypto/schnorr/schnorr_proof.go:35-56 `NewZKProof` for a non-nil secret; `a` is the random draw;
none in the result is an error. -/
def NewZKProof (H : Bytes → Bytes) (c : Curve) (session : Bytes) (x : Int) (X : ECPoint) (a : Int) :
    Res Unit ZKProof :=
  if !validateBasic c (some X) then .err ()
  else match scalarBaseMult c a with
    | none => .panic
    | some alpha =>
      let ch := zkChallenge H c session X alpha
      .ok ⟨alpha, (a + ch * x) % c.N⟩

/-- crypto/schnorr/schnorr_proof.go:59-80 `ZKProof.Verify`. -/
def ZKProof.verify (H : Bytes → Bytes) (c : Curve) (session : Bytes) (pf : ZKProof) (X : ECPoint) : Res Unit Bool :=
  let ch := zkChallenge H c session X pf.Alpha
  let tG := scalarBaseMult c pf.T
  match scalarMult c X ch with
  | none => .panic
  | some Xc =>
    match ECPoint.add c pf.Alpha Xc with
    | none => .ok false
    | some aXc =>
      match tG with
      | none => .panic
      | some tG => .ok (decide (aXc.x = tG.x) && decide (aXc.y = tG.y))

/-- crypto/schnorr/schnorr_proof.go:24-27 `ZKVProof`. -/
structure ZKVProof where
  Alpha : ECPoint
  T : Int
  U : Int
  deriving DecidableEq

/-- The Fiat-Shamir challenge of crypto/schnorr/schnorr_proof.go:101-105 and 122-126. -/
def zkvChallenge (H : Bytes → Bytes) (c : Curve) (session : Bytes) (V R alpha : ECPoint) : Int :=
  (Common.SHA512_256i_TAGGED H session
    [some V.x, some V.y, some R.x, some R.y, some c.Gx, some c.Gy, some alpha.x, some alpha.y]).getD 0 % c.N

/-- crypto/schnorr/schnorr_proof.go:87-111 `NewZKVProof`; `a`, `b` are the random draws. -/
def NewZKVProof (H : Bytes → Bytes) (c : Curve) (session : Bytes) (V R : ECPoint) (s l a b : Int) :
    Res Unit ZKVProof :=
  if !validateBasic c (some V) || !validateBasic c (some R) then .err ()
  else match scalarMult c R a, scalarBaseMult c b with
    | some aR, some bG =>
      match ECPoint.add c aR bG with
      | some alpha =>
        let ch := zkvChallenge H c session V R alpha
        .ok ⟨alpha, (a + ch * s) % c.N, (b + ch * l) % c.N⟩
      | none => .panic
    | _, _ => .panic

/-- crypto/schnorr/schnorr_proof.go:113-137 `ZKVProof.Verify` (with 139-141 `ValidateBasic`). -/
def ZKVProof.verify (H : Bytes → Bytes) (c : Curve) (session : Bytes) (pf : ZKVProof) (V R : ECPoint) :
    Res Unit Bool :=
  if !validateBasic c (some pf.Alpha) then .ok false
  else
    let ch := zkvChallenge H c session V R pf.Alpha
    match scalarMult c R pf.T, scalarBaseMult c pf.U with
    | some tR, some uG =>
      match scalarMult c V ch with
      | none => .panic
      | some Vc =>
        match ECPoint.add c pf.Alpha Vc with
        | none => .ok false
        | some aVc =>
          match ECPoint.add c tR uG with
          | none => .panic
          | some tRuG => .ok (decide (tRuG.x = aVc.x) && decide (tRuG.y = aVc.y))
    | _, _ => .panic

end Tss.Schnorr
