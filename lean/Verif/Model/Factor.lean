import Verif.Model.AliceUtils
/-
Model of /repo/crypto/alice/zkproof/integerfactorization.go. The BLAKE2b-256 hash is the parameter `Hb`.
-/
namespace Tss.Factor
open Tss Alice

/-- integerfactorization.go:24 `safePubKeySize`. -/
def safePubKeySize : Nat := 2048

/-- integerfactorization.go:30 `maxRetry`. -/
def maxRetry : Nat := 100

/-- integerfactorization.go:52 `challengeSize` = 2^80. -/
def challengeSize : Int := 2 ^ 80

/-- crypto/alice/zkproof/message.pb.go `IntegerFactorizationProofMessage`. -/
structure Msg where
  salt : Bytes
  publicKey : Bytes
  X : Bytes
  Y : Bytes
  deriving DecidableEq

/-- integerfactorization.go:174-175: the (only) candidate; `index` never changes, so neither does the candidate. -/
def candidate (Hb : Bytes → Bytes) (N index : Int) : Int :=
  (beNat (ExtnedHashOuput Hb (intBytes index) (intBytes N) (bitLen N)) : Int)

/-- integerfactorization.go:173-180: the inner loop, leaving its last candidate. -/
def innerZ (Hb : Bytes → Bytes) (N index : Int) : Nat → Int
  | 0 => candidate Hb N index
  | k + 1 =>
    match InRange (candidate Hb N index) 2 (N - 1) with
    | .ok _ => candidate Hb N index
    | _ => innerZ Hb N index k

/-- integerfactorization.go:172-184: the outer loop. -/
def outerZ (Hb : Bytes → Bytes) (N index : Int) (maxTry : Nat) : Nat → Res AErr Int
  | 0 => .err .exceedMaxRetry
  | k + 1 =>
    let result := innerZ Hb N index (maxTry - 1)
    if IsRelativePrime result N then .ok result else outerZ Hb N index maxTry k

/-- integerfactorization.go:170-187 `generateZ` (for a positive `maxTry`). -/
def generateZ (Hb : Bytes → Bytes) (N index : Int) (maxTry : Nat) : Res AErr Int := outerZ Hb N index maxTry maxTry

/-- integerfactorization.go:128-168 `Verify`. A nil power would be dereferenced. -/
def Verify (Hb : Bytes → Bytes) (msg : Msg) : Res AErr Unit :=
  let publicKey : Int := beNat msg.publicKey
  let x : Int := beNat msg.X
  (InRange x 1 publicKey).bind fun _ =>
  let A := publicKey - 1
  let y : Int := beNat msg.Y
  (InRange y 0 A).bind fun _ =>
  (generateZ Hb publicKey 1 maxRetry).bind fun z =>
  let e := HashProtosToInt Hb msg.salt [intBytes x, intBytes z, intBytes publicKey] % challengeSize
  match bigExp z (y - publicKey * e) publicKey with
  | none => .panic
  | some expected => if expected ≠ x then .err .verifyFailure else .ok ()

/-- integerfactorization.go:77-124: one attempt: the message before the final check. `salts` are the salts of the
rejection sampling. -/
def attempt (Hb : Bytes → Bytes) (primeFactor : List Int) (publicKey : Int) (tape : Bytes) (salts : Nat → Bytes) :
    Res AErr (Msg × Bytes) :=
  let A := publicKey - 1
  (RandomPositiveInt A tape).bind fun (r, rest) =>
  (generateZ Hb publicKey 1 maxRetry).bind fun z =>
  match bigExp z r publicKey with
  | none => .panic
  | some x =>
    (HashProtosRejectSampling Hb (2 ^ 256) [intBytes x, intBytes z, intBytes publicKey] salts).bind fun (e, salt) =>
    let e := e % challengeSize
    (EulerFunction primeFactor).bind fun eulerValue =>
    let y := r + (publicKey - eulerValue) * e
    .ok (⟨salt, intBytes publicKey, intBytes x, intBytes y⟩, rest)

/-- integerfactorization.go:77-125: the retry loop. -/
def newLoop (Hb : Bytes → Bytes) (primeFactor : List Int) (publicKey : Int) (salts : Nat → Nat → Bytes) :
    Nat → Bytes → Res AErr (Msg × Bytes)
  | 0, _ => .err .exceedMaxRetry
  | k + 1, tape =>
    match attempt Hb primeFactor publicKey tape (salts k) with
    | .ok (msg, rest) =>
      match Verify Hb msg with
      | .ok _ => .ok (msg, rest)
      | .err _ => newLoop Hb primeFactor publicKey salts k rest
      | .panic => .panic
    | .err e => .err e
    | .panic => .panic

/-- integerfactorization.go:72-126 `NewIntegerFactorizationProofMessage`. -/
def New (Hb : Bytes → Bytes) (primeFactor : List Int) (publicKey : Int) (salts : Nat → Nat → Bytes) (tape : Bytes) :
    Res AErr (Msg × Bytes) :=
  if bitLen publicKey < safePubKeySize then .err .smallPublicKeySize
  else newLoop Hb primeFactor publicKey salts maxRetry tape

end Tss.Factor
