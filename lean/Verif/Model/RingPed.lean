import Verif.Model.AlicePaillier
/-
Model of /repo/crypto/alice/zkproof/paillier/ring_pedersenzkproof.go.
-/
namespace Tss.RingPed
open Tss Alice

/-- ring_pedersenzkproof.go:31 `MINIMALCHALLENGE`. -/
def MINIMALCHALLENGE : Nat := 10

/-- Errors: those of utils, and the two of ring_pedersenzkproof.go:24-29. -/
inductive RErr where
  | tooFewChallenge
  | verifyFailure
  | utils (e : AErr)
  deriving DecidableEq

/-- An error of utils is passed on. -/
def lift {α : Type} : Res AErr α → Res RErr α
  | .ok a => .ok a
  | .err e => .err (.utils e)
  | .panic => .panic

/-- crypto/alice/zkproof/paillier/message.pb.go `RingPederssenParameterMessage`. -/
structure Msg where
  Z : List Bytes
  A : List Bytes
  N : Bytes
  S : Bytes
  T : Bytes
  salt : Bytes
  deriving DecidableEq

/-- ring_pedersenzkproof.go:58-62 (= 110-114): the challenge bit of one commitment: the hash of the salt, the session,
N, s, t and this commitment alone. -/
def chal (Hb : Bytes → Bytes) (salt ssidInfo : Bytes) (n s t : Int) (a : Bytes) : Int :=
  HashBytesToInt Hb salt [ssidInfo, intBytes n, intBytes s, intBytes t, a] % 2

/-- ring_pedersenzkproof.go:50-70: the loop, building the pairs (A[i], Z[i]) (`Mod` by a zero Euler value is excluded by
RandomInt). -/
def newLoop (Hb : Bytes → Bytes) (ssidInfo : Bytes) (eulerValue n s t lambda : Int) (salt : Bytes) :
    Nat → Bytes → Res RErr (List (Bytes × Bytes) × Bytes)
  | 0, tape => .ok ([], tape)
  | k + 1, tape =>
    (lift (RandomInt eulerValue tape)).bind fun (ai, rest) =>
    (AlicePaillier.deref (bigExp t ai n)).bind fun Ai =>
    let ei := chal Hb salt ssidInfo n s t (intBytes Ai)
    let zi := (ai + ei * lambda) % eulerValue
    (newLoop Hb ssidInfo eulerValue n s t lambda salt k rest).bind fun (l, rest) =>
    .ok ((intBytes Ai, intBytes zi) :: l, rest)

/-- ring_pedersenzkproof.go:40-80 `NewRingPederssenParameterMessage`. -/
def New (Hb : Bytes → Bytes) (ssidInfo : Bytes) (eulerValue n s t lambda : Int) (number : Int) (tape : Bytes) :
    Res RErr (Msg × Bytes) :=
  if number < MINIMALCHALLENGE then .err .tooFewChallenge
  else
    (lift (GenRandomBytes 128 tape)).bind fun (salt, rest) =>
    (newLoop Hb ssidInfo eulerValue n s t lambda salt number.toNat rest).bind fun (l, rest) =>
    .ok (⟨l.map Prod.snd, l.map Prod.fst, intBytes n, intBytes s, intBytes t, salt⟩, rest)

/-- ring_pedersenzkproof.go:95-125: the body of the verifier's loop for one commitment and response. -/
def checkOne (Hb : Bytes → Bytes) (ssidInfo salt : Bytes) (n s t : Int) (a z : Bytes) : Res RErr Unit :=
  let Ai : Int := beNat a
  (lift (InRange Ai 0 n)).bind fun _ =>
  if ¬ IsRelativePrime Ai n then .err .verifyFailure
  else
    let zi : Int := beNat z
    (lift (InRange zi 0 n)).bind fun _ =>
    let ei := chal Hb salt ssidInfo n s t a
    (AlicePaillier.deref (bigExp s ei n)).bind fun se =>
    let Asei := se * Ai % n
    (AlicePaillier.deref (bigExp t zi n)).bind fun tzi =>
    if tzi ≠ Asei then .err .verifyFailure else .ok ()

/-- ring_pedersenzkproof.go:95-126: the loop; a missing response is an index panic (after the checks of A[i]). -/
def checkLoop (Hb : Bytes → Bytes) (ssidInfo salt : Bytes) (n s t : Int) : List Bytes → List Bytes → Res RErr Unit
  | [], _ => .ok ()
  | a :: as, z :: zs => (checkOne Hb ssidInfo salt n s t a z).bind fun _ => checkLoop Hb ssidInfo salt n s t as zs
  | a :: _, [] =>
    (lift (InRange (beNat a : Int) 0 n)).bind fun _ =>
    if ¬ IsRelativePrime (beNat a : Int) n then .err .verifyFailure else .panic

/-- ring_pedersenzkproof.go:82-128 `Verify`. -/
def Verify (Hb : Bytes → Bytes) (msg : Msg) (ssidInfo : Bytes) : Res RErr Unit :=
  if msg.A.length < MINIMALCHALLENGE then .err .tooFewChallenge
  else checkLoop Hb ssidInfo msg.salt (beNat msg.N : Int) (beNat msg.S : Int) (beNat msg.T : Int) msg.A msg.Z

end Tss.RingPed
