import Verif.Model.Factor
import Verif.Model.Paillier
/-
Model of /repo/crypto/alice/paillier/paillier.go, message.go and ringpedersen.go (the Paillier scheme of the signing
proofs). `crypto/rand.Reader` is a tape; the prime generators (`rand.Prime`, `GenerateRandomSafePrime`, modelled in
Model/AlicePrime) appear as the sequence of the primes they deliver.
-/
namespace Tss.AlicePaillier
open Tss Alice

/-- paillier.go:44-52 `publicKey`. -/
structure PublicKey where
  n : Int
  g : Int
  nSquare : Int
  deriving DecidableEq

/-- paillier.go:107-113 `privateKey`. -/
structure PrivateKey where
  p : Int
  q : Int
  lambda : Int
  phiN : Int
  mu : Int
  deriving DecidableEq

/-- paillier.go:115-118 `Paillier`. -/
structure Key where
  pub : PublicKey
  priv : PrivateKey
  deriving DecidableEq

/-- A nil pointer dereference panics. -/
def deref {ε : Type} (o : Option Int) : Res ε Int :=
  match o with
  | none => .panic
  | some v => .ok v

/-- paillier.go:54-57, 389-393 `GetMessageRange`: n - (fieldOrder-1)^2. -/
def GetMessageRange (pub : PublicKey) (fieldOrder : Int) : Int := pub.n - (fieldOrder - 1) ^ 2

/-- paillier.go:85-98 `EncryptWithOutputSalt`: the ciphertext and the salt. -/
def EncryptWithOutputSalt (pub : PublicKey) (m : Int) (tape : Bytes) : Res AErr (Int × Int × Bytes) :=
  (RandomCoprimeInt pub.n tape).bind fun (r, rest) =>
  (deref (bigExp pub.g m pub.nSquare)).bind fun gm =>
  (deref (bigExp r pub.n pub.nSquare)).bind fun rn =>
  if pub.nSquare = 0 then .panic else .ok (gm * rn % pub.nSquare, r, rest)

/-- paillier.go:71-83 `Encrypt`. -/
def Encrypt (pub : PublicKey) (mBytes : Bytes) (tape : Bytes) : Res AErr (Bytes × Bytes) :=
  let m : Int := beNat mBytes
  if pub.n ≤ m then .err .invalidMessage
  else (EncryptWithOutputSalt pub m tape).bind fun (c, _, rest) => .ok (intBytes c, rest)

/-- paillier.go:318-328 `lFunction`. -/
def lFunction (x n : Int) : Res AErr Int :=
  if n ≤ 0 then .err .invalidInput
  else if x ≤ 0 then .err .invalidInput
  else .ok ((x - 1) / n)

/-- paillier.go:283-294 `isCorrectCiphertext`. -/
def isCorrectCiphertext (c : Int) (pub : PublicKey) : Res AErr Unit :=
  (InRange c 1 pub.nSquare).bind fun _ =>
  if ¬ IsRelativePrime c pub.n then .err .invalidMessage else .ok ()

/-- paillier.go:197-215 `Decrypt`. -/
def Decrypt (k : Key) (cBytes : Bytes) : Res AErr Bytes :=
  let c : Int := beNat cBytes
  (isCorrectCiphertext c k.pub).bind fun _ =>
  (deref (bigExp c k.priv.lambda k.pub.nSquare)).bind fun x =>
  (lFunction x k.pub.n).bind fun l =>
  .ok (intBytes (l * k.priv.mu % k.pub.n))

/-- paillier.go:335-358 `Add`. -/
def Add (pub : PublicKey) (c1Bytes c2Bytes : Bytes) (tape : Bytes) : Res AErr (Bytes × Bytes) :=
  let c1 : Int := beNat c1Bytes
  let c2 : Int := beNat c2Bytes
  (isCorrectCiphertext c1 pub).bind fun _ =>
  (isCorrectCiphertext c2 pub).bind fun _ =>
  let result := c1 * c2 % pub.nSquare
  (RandomCoprimeInt pub.n tape).bind fun (r, rest) =>
  (deref (bigExp r pub.n pub.nSquare)).bind fun rn =>
  .ok (intBytes (result * rn % pub.nSquare), rest)

/-- paillier.go:366-382 `MulConst` (`Mod` by n; n is not zero after the check of the ciphertext). -/
def MulConst (pub : PublicKey) (cBytes : Bytes) (scalar : Int) (tape : Bytes) : Res AErr (Bytes × Bytes) :=
  let c : Int := beNat cBytes
  (isCorrectCiphertext c pub).bind fun _ =>
  (deref (bigExp c (scalar % pub.n) pub.nSquare)).bind fun result =>
  (RandomCoprimeInt pub.n tape).bind fun (r, rest) =>
  (deref (bigExp r pub.n pub.nSquare)).bind fun rn =>
  .ok (intBytes (result * rn % pub.nSquare), rest)

/-- paillier.go:396-402 `GetNthRoot` (none: a nil inverse). -/
def GetNthRoot (k : Key) : Res AErr (Option Int) :=
  (EulerFunction [k.priv.p, k.priv.q]).bind fun e => .ok (modInverse k.pub.n e)

/-! ### Key generation -/

/-- paillier.go:242-281 `generatePrime`: draws pairs until they differ, at most `k` times; `draw` yields the i-th prime
of the generator (either of the two generators). Returns the number of draws made. -/
def generatePrime (draw : Nat → Res AErr Int) : Nat → Nat → Res AErr (Int × Int × Nat)
  | 0, _ => .err .exceedMaxRetry
  | k + 1, i =>
    (draw i).bind fun p =>
    (draw (i + 1)).bind fun q =>
    if p = q then generatePrime draw k (i + 2) else .ok (p, q, i + 2)

/-- paillier.go:220-240 `getNAndLambda`: at most `k` rounds. Returns p, q, n, λ, φ. -/
def getNAndLambda (draw : Nat → Res AErr Int) : Nat → Nat → Res AErr (Int × Int × Int × Int × Int)
  | 0, _ => .err .exceedMaxRetry
  | k + 1, i =>
    (generatePrime draw 100 i).bind fun (p, q, i') =>
    let n := p * q
    let m := (p - 1) * (q - 1)
    if IsRelativePrime n m then
      match Lcm (p - 1) (q - 1) with
      | .ok l => .ok (p, q, n, l, m)
      | _ => getNAndLambda draw k i'
    else getNAndLambda draw k i'

/-- paillier.go:297-315 `getGAndMuWithSpecialG`: at most `k` rounds (all the same). -/
def getGAndMuWithSpecialG (lambda n : Int) : Nat → Res AErr (Int × Int)
  | 0 => .err .exceedMaxRetry
  | k + 1 =>
    let g := 1 + n
    (deref (bigExp g lambda (n * n))).bind fun x =>
    (lFunction x n).bind fun u =>
    match modInverse u n with
    | some mu => .ok (g, mu)
    | none => getGAndMuWithSpecialG lambda n k

/-- crypto/alice/paillier/message.pb.go `PubKeyMessage`. -/
structure PubKeyMessage where
  proof : Factor.Msg
  G : Bytes
  deriving DecidableEq

/-- message.go:23-51 `ToPubkey`. -/
def ToPubkey (Hb : Bytes → Bytes) (msg : PubKeyMessage) : Res AErr PublicKey :=
  (Factor.Verify Hb msg.proof).bind fun _ =>
  let n : Int := beNat msg.proof.publicKey
  let g : Int := beNat msg.G
  if n ≤ 0 then .err .invalidMessage
  else (InRange g 2 (n * n)).bind fun _ =>
    if ¬ IsRelativePrime g (n * n) then .err .invalidMessage
    else .ok ⟨n, g, n * n⟩

/-- paillier.go:163-194 `NewPaillierUnSafe` (maxGenN = maxGenG = 100). -/
def NewPaillierUnSafe (Hb : Bytes → Bytes) (draw : Nat → Res AErr Int) (salts : Nat → Nat → Bytes) (tape : Bytes) :
    Res AErr Key :=
  (getNAndLambda draw 100 0).bind fun (p, q, n, lambda, phiN) =>
  (getGAndMuWithSpecialG lambda n 100).bind fun (g, mu) =>
  (Factor.New Hb [p, q] n salts tape).bind fun (msg, _) =>
  (ToPubkey Hb ⟨msg, intBytes g⟩).bind fun pub =>
  .ok ⟨pub, ⟨p, q, lambda, phiN, mu⟩⟩

/-- paillier.go:148-160 `NewPaillier`, `NewPaillierSafePrime`. -/
def NewPaillier (Hb : Bytes → Bytes) (keySize : Int) (draw : Nat → Res AErr Int) (salts : Nat → Nat → Bytes)
    (tape : Bytes) : Res AErr Key :=
  if keySize < 2048 then .err .smallPublicKeySize else NewPaillierUnSafe Hb draw salts tape

/-! ### Ring-Pedersen parameters -/

/-- ringpedersen.go:28-35, zkproof/paillier/pederssenOpenParameter.go:21-33 the parameters. -/
structure Pedersen where
  p : Int
  q : Int
  eulern : Int
  lambda : Int
  n : Int
  s : Int
  t : Int
  deriving DecidableEq

/-- ringpedersen.go:53-76 `NewPedersenParameterByPaillier`. -/
def NewPedersenParameterByPaillier (k : Key) (tape : Bytes) : Res AErr (Pedersen × Bytes) :=
  (EulerFunction [k.priv.p, k.priv.q]).bind fun eulern =>
  (RandomInt eulern tape).bind fun (lambda, rest) =>
  (RandomInt k.pub.n rest).bind fun (tau, rest) =>
  (deref (bigExp tau 2 k.pub.n)).bind fun t =>
  (deref (bigExp t lambda k.pub.n)).bind fun s =>
  .ok (⟨k.priv.p, k.priv.q, eulern, lambda, k.pub.n, s, t⟩, rest)

/-- ringpedersen.go:78-89 `NewPedersenOpenParameter`. -/
def NewPedersenOpenParameter (n s t : Int) : Res AErr (Int × Int × Int) :=
  if ¬ IsRelativePrime s n then .err .invalidInput
  else if ¬ IsRelativePrime t n then .err .invalidInput
  else if bitLen n < 2048 then .err .smallPublicKeySize
  else .ok (n, s, t)

end Tss.AlicePaillier
