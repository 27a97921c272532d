import Verif.Model.Common
/-
Model of /repo/crypto/utils.go and of `GetRandomPrimeInt` (/repo/common/random.go:53-69).
-/
namespace Tss.NTilde
open Tss Common

/-- utils.go:17-28 `GenerateNTildei`, run for at most `fuel` rounds of each of its two retry loops; `pp` is `ProbablyPrime(30)`, the
tape is the random reader. The result is (NTilde, h1, h2) and the rest of the tape. -/
def GenerateNTildei (pp : Int → Bool) (p q : Option Int) (fuel : Nat) (tape : Bytes) : Run (Int × Int × Int × Bytes) :=
  match p, q with
  | some p, some q =>
    if !pp p || !pp q then some (.err ())
    else
      match GetRandomGeneratorOfTheQuadraticResidue (some (p * q)) fuel tape with
      | none => none
      | some (.err e) => some (.err e)
      | some .panic => some .panic
      | some (.ok (h1, tape)) =>
        match GetRandomGeneratorOfTheQuadraticResidue (some (p * q)) fuel tape with
        | none => none
        | some (.err e) => some (.err e)
        | some .panic => some .panic
        | some (.ok (h2, tape)) => some (.ok (p * q, h1, h2, tape))
  | _, _ => some (.err ())

/-- random.go:60-65: the fallback loop. -/
def primeLoop (pp : Int → Bool) (bits : Int) : Nat → Bytes → Run (Option Int × Bytes)
  | 0, _ => none
  | f + 1, tape =>
    match MustGetRandomInt bits tape with
    | .ok (t, rest) => if pp t then some (.ok (some t, rest)) else primeLoop pp bits f rest
    | .err _ => some (.err ())
    | .panic => some .panic

/-- random.go:53-69 `GetRandomPrimeInt`; `drawn` is what crypto/rand.Prime(rand, bits) returns (none: an error) and `tape` what it
leaves of the reader. -/
def GetRandomPrimeInt (pp : Int → Bool) (drawn : Option Int) (bits : Int) (fuel : Nat) (tape : Bytes) : Run (Option Int × Bytes) :=
  if bits ≤ 0 then some (.ok (none, tape))
  else
    match drawn with
    | some t => if t = 0 then primeLoop pp bits fuel tape else some (.ok (some t, tape))
    | none => primeLoop pp bits fuel tape

end Tss.NTilde
