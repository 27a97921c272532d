import Verif.Model.AliceUtils
import Verif.Model.EC
/-
Model of /repo/crypto/config.go, /repo/crypto/encproof/proof.go and /repo/crypto/logproof/proof.go.
Random draws are arguments (their ranges are theorem C65); BLAKE2b-256 is the parameter `Hb`.
-/
namespace Tss.RangeProofs
open Tss Text Alice

/-- Ring-Pedersen public key (N, S, T): crypto/alice/paillier/ringpedersen.go:14-18 `PedPubKey`. -/
abbrev Ped := Int × Int × Int

/-- crypto/config.go:16-24 `ProofConfig`. -/
structure ProofConfig where
  curveN : Int
  twoExpLAddepsilon : Int
  twoExpLpaiAddepsilon : Int
  twoExpL : Int
  lAddEpsilon : Nat
  lpaiAddEpsilon : Nat
  lpai : Nat
  deriving DecidableEq

/-- crypto/config.go:26-39 `NewProofConfig`: `Lsh(big2, k)` is 2·2^k. -/
def NewProofConfig (curveN : Int) : ProofConfig :=
  let epsilon := 2 * bitLen curveN
  let L := 1 * bitLen curveN
  let Lpai := 5 * bitLen curveN
  { curveN := curveN
    twoExpLAddepsilon := 2 * 2 ^ (L + epsilon)
    twoExpLpaiAddepsilon := 2 * 2 ^ (Lpai + epsilon)
    twoExpL := 2 * 2 ^ L
    lAddEpsilon := L + epsilon
    lpaiAddEpsilon := Lpai + epsilon
    lpai := Lpai }

/-- `big.Int.String()`: decimal, with a leading minus. -/
def bigString (z : Int) : Bytes := if z < 0 then 45 :: itoa z.natAbs else itoa z.natAbs

/-- Why a verification failed. -/
inductive VErr where
  | util (e : AErr)
  | notUnit (what : Nat)
  | z1Range
  | offCurve
  | pointEq
  | paillierEq
  | pedEq
  deriving DecidableEq, Repr

/-- The random draws of a prover; `salts` are those of `GetE`'s attempts. -/
structure Draws where
  alpha : Int
  mu : Int
  r : Int
  gamma : Int
  salts : Nat → Bytes

/-! ### encproof -/

/-- crypto/encproof/enc_msg.pb.go `EncryptRangeMessage`; `z1`, `z3` are decimal strings. -/
structure EncMsg where
  salt : Bytes
  S : Bytes
  A : Bytes
  C : Bytes
  z1 : Bytes
  z2 : Bytes
  z3 : Bytes
  deriving DecidableEq

/-- s^a · t^b mod N; none is a nil intermediate value, dereferenced by `Mul`
(crypto/encproof/proof.go:59-60, 65-66, 172-173, crypto/logproof/proof.go:60-61, 68-69, 191-192). -/
def commit (ped : Ped) (a b : Int) : Option Int :=
  match bigExp ped.2.1 a ped.1, bigExp ped.2.2 b ped.1 with
  | some x, some y => some (x * y % ped.1)
  | _, _ => none

/-- (1+N)^a · r^N mod N² (crypto/encproof/proof.go:62-63, 160-164, crypto/logproof/proof.go:63-64, 184-186). -/
def enc0 (n a r : Int) : Option Int :=
  match bigExp (1 + n) a (n * n), bigExp r n (n * n) with
  | some x, some y => some (x * y % (n * n))
  | _, _ => none

/-- A · K^e mod m (crypto/encproof/proof.go:158-159, 170-171, crypto/logproof/proof.go:182-183, 193-194). -/
def mulExp (A K e m : Int) : Option Int :=
  match bigExp K e m with
  | some x => some (A * x % m)
  | none => none

/-- The hashed parts of crypto/encproof/proof.go:68-70 and 142-143. -/
def encParts (cfg : ProofConfig) (ssid : Bytes) (K n : Int) (ped : Ped) (S A C : Int) : List Bytes :=
  [ssid, intBytes cfg.lAddEpsilon, intBytes K, intBytes n, intBytes ped.1, intBytes ped.2.1, intBytes ped.2.2,
    intBytes S, intBytes A, intBytes C]

/-- crypto/encproof/proof.go:23-93 `NewEncryptRangeMessage`.  The draws come from
`RandomAbsoluteRangeInt`/`RandomCoprimeInt`, whose own errors (reader failure, N ≤ 2) are not modelled
here; modulus 0 would panic in `Mod`. -/
def NewEncryptRangeMessage (Hb : Bytes → Bytes) (cfg : ProofConfig) (ssid : Bytes) (K n k rho : Int) (ped : Ped)
    (d : Draws) : Res AErr EncMsg :=
  if ped.1 = 0 ∨ n = 0 then .panic
  else match commit ped k d.mu, enc0 n d.alpha d.r, commit ped d.alpha d.gamma with
  | some S, some A, some C =>
    match GetE Hb cfg.curveN (encParts cfg ssid K n ped S A C) d.salts with
    | .ok (e, salt) =>
      match mulExp d.r rho e n with
      | some z2 =>
        .ok {
          salt := salt
          S := intBytes S
          A := intBytes A
          C := intBytes C
          z1 := bigString (e * k + d.alpha)
          z2 := intBytes z2
          z3 := bigString (e * d.mu + d.gamma) }
      | none => .panic
    | .err er => .err er
    | .panic => .panic
  | _, _, _ => .panic

/-- Lift an error of the utility package. -/
def lift : Res AErr Unit → Res VErr Unit
  | .ok _ => .ok ()
  | .err e => .err (.util e)
  | .panic => .panic

/-- A failed check returns its error. -/
def check (b : Bool) (e : VErr) : Res VErr Unit := if b then .ok () else .err e

/-- A nil big integer is dereferenced. -/
def deref (o : Option Int) : Res VErr Int :=
  match o with
  | some z => .ok z
  | none => .panic

/-- The challenge recomputed by the verifiers (crypto/encproof/proof.go:142-147, logproof/proof.go:155-160). -/
def challenge (Hb : Bytes → Bytes) (q : Int) (salt : Bytes) (parts : List Bytes) : Int :=
  RandomAbsoluteRangeIntBySeed Hb salt (HashProtos Hb salt parts) q

/-- crypto/encproof/proof.go:95-178 `Verify`, in program order: a nil `z1` panics at line 153, a nil power
at 158, 172. -/
def EncMsg.verify (Hb : Bytes → Bytes) (cfg : ProofConfig) (ssid : Bytes) (K n : Int) (ped : Ped) (m : EncMsg) :
    Res VErr Unit := do
  let pedN := ped.1
  let S : Int := beNat m.S
  lift (InRange S 0 pedN)
  check (IsRelativePrime S pedN) (.notUnit 1)
  let C : Int := beNat m.C
  lift (InRange C 0 pedN)
  check (IsRelativePrime C pedN) (.notUnit 2)
  let z1 := parseBig 10 m.z1
  let z2 : Int := beNat m.z2
  lift (InRange z2 0 n)
  let z3 := parseBig 10 m.z3
  let nn := n * n
  let A : Int := beNat m.A
  lift (InRange A 0 nn)
  check (IsRelativePrime A n) (.notUnit 3)
  let e := challenge Hb cfg.curveN m.salt (encParts cfg ssid K n ped S A C)
  lift (InRange e (-cfg.curveN) (1 + cfg.curveN))
  let z1 ← deref z1
  check (decide ((z1.natAbs : Int) ≤ 2 * 2 ^ cfg.lAddEpsilon)) .z1Range
  let AKexpe ← deref (mulExp A K e nn)
  let compare ← deref (enc0 n z1 z2)
  check (decide (compare = AKexpe)) .paillierEq
  let CSexpe ← deref (mulExp C S e pedN)
  let z3 ← deref z3
  let compare ← deref (commit ped z1 z3)
  check (decide (CSexpe = compare)) .pedEq

/-! ### logproof -/

/-- crypto/logproof/log_msg.pb.go `LogStarMessage`. -/
structure LogMsg where
  salt : Bytes
  S : Bytes
  A : Bytes
  Yx : Bytes
  Yy : Bytes
  D : Bytes
  z1 : Bytes
  z2 : Bytes
  z3 : Bytes
  deriving DecidableEq

/-- The hashed parts of crypto/logproof/proof.go:71-72 and 153-154. -/
def logParts (cfg : ProofConfig) (ssid : Bytes) (n : Int) (ped : Ped) (C S A D : Int) (G X Y : ECPoint) : List Bytes :=
  [ssid, intBytes cfg.lAddEpsilon, intBytes n, intBytes ped.1, intBytes C, intBytes S, intBytes A, intBytes D,
    intBytes G.y, intBytes X.y, intBytes Y.y]

/-- crypto/logproof/proof.go:26-97 `NewKnowExponentAndPaillierEncryption`; a nil `Y` is dereferenced. -/
def NewKnowExponent (Hb : Bytes → Bytes) (cv : Curve) (cfg : ProofConfig) (ssid : Bytes) (x rho C n : Int)
    (ped : Ped) (X G : ECPoint) (d : Draws) : Res AErr LogMsg :=
  if ped.1 = 0 ∨ n = 0 then .panic
  else match commit ped x d.mu, enc0 n d.alpha d.r, ECPoint.scalarMult cv G d.alpha, commit ped d.alpha d.gamma with
  | some S, some A, some Y, some D =>
    match GetE Hb cfg.curveN (logParts cfg ssid n ped C S A D G X Y) d.salts with
    | .ok (e, salt) =>
      match mulExp d.r rho e n with
      | some z2 =>
        .ok {
          salt := salt
          S := intBytes S
          A := intBytes A
          Yx := intBytes Y.x
          Yy := intBytes Y.y
          D := intBytes D
          z1 := bigString (d.alpha + e * x)
          z2 := intBytes z2
          z3 := bigString (d.gamma + e * d.mu) }
      | none => .panic
    | .err er => .err er
    | .panic => .panic
  | _, _, _, _ => .panic

/-- A nil point is dereferenced. -/
def derefP (o : Option ECPoint) : Res VErr ECPoint :=
  match o with
  | some p => .ok p
  | none => .panic

/-- crypto/logproof/proof.go:99-199 `Verify`, in program order. -/
def LogMsg.verify (Hb : Bytes → Bytes) (cv : Curve) (cfg : ProofConfig) (ssid : Bytes) (C n : Int) (ped : Ped)
    (X G : ECPoint) (m : LogMsg) : Res VErr Unit := do
  let nn := n * n
  let pedN := ped.1
  let S : Int := beNat m.S
  lift (InRange S 0 pedN)
  check (IsRelativePrime S pedN) (.notUnit 1)
  let A : Int := beNat m.A
  lift (InRange A 0 nn)
  check (IsRelativePrime A n) (.notUnit 2)
  let D : Int := beNat m.D
  lift (InRange D 0 pedN)
  check (IsRelativePrime D pedN) (.notUnit 3)
  let z1 := parseBig 10 m.z1
  let z2 : Int := beNat m.z2
  lift (InRange z2 0 n)
  check (IsRelativePrime z2 n) (.notUnit 4)
  let z3 := parseBig 10 m.z3
  let Y ← Res.orErr (ECPoint.new cv (beNat m.Yx) (beNat m.Yy)) VErr.offCurve
  let e := challenge Hb cfg.curveN m.salt (logParts cfg ssid n ped C S A D G X Y)
  lift (InRange e (-cfg.curveN) (1 + cfg.curveN))
  let z1 ← deref z1
  check (decide ((z1.natAbs : Int) ≤ 2 * 2 ^ cfg.lAddEpsilon)) .z1Range
  let eX ← derefP (ECPoint.scalarMult cv X e)
  let YXexpe ← Res.orErr (ECPoint.add cv eX Y) VErr.offCurve
  let gz1 ← derefP (ECPoint.scalarMult cv G z1)
  check (decide (gz1.x = YXexpe.x) && decide (gz1.y = YXexpe.y)) .pointEq
  let AKexpe ← deref (mulExp A C e nn)
  let compare ← deref (enc0 n z1 z2)
  check (decide (compare = AKexpe)) .paillierEq
  let z3 ← deref z3
  let sz1tz3 ← deref (commit ped z1 z3)
  let DSexpe ← deref (mulExp D S e pedN)
  check (decide (sz1tz3 = DSexpe)) .pedEq

end Tss.RangeProofs
