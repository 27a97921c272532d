import Verif.Model.Common
import Verif.Model.Text
/-
Model of /repo/crypto/paillier/paillier.go (the Binance Paillier scheme).
-/
namespace Tss.Paillier
open Tss Common Text

/-- crypto/paillier/paillier.go:55-57 the two error values. -/
inductive PErr where
  | tooLong
  | malFormed
  deriving DecidableEq, Repr

/-- crypto/paillier/paillier.go:44-49 `PrivateKey` (with its embedded `PublicKey`, 40-42). -/
structure PrivateKey where
  N : Int
  lambdaN : Int
  phiN : Int
  P : Int
  Q : Int
  deriving DecidableEq

/-- crypto/paillier/paillier.go:156-158 `NSquare`. -/
def nSquare (N : Int) : Int := N * N

/-- crypto/paillier/paillier.go:166-168 `Gamma`. -/
def gamma (N : Int) : Int := N + 1

/-- crypto/paillier/paillier.go:161-163 `AsInts`. -/
def asInts (N : Int) : List Int := [N, gamma N]

/-- crypto/paillier/paillier.go:119-126: the ciphertext for randomness `x`; none is the panic of `Mod` by zero
or a nil power (neither occurs after the range check, which needs N > 0). -/
def cipher (N m x : Int) : Option Int :=
  match bigExp (gamma N) m (nSquare N), bigExp x N (nSquare N) with
  | some Gm, some xN =>
    match modMul (nSquare N) Gm xN with
    | .ok c => some c
    | _ => none
  | _, _ => none

/-- crypto/paillier/paillier.go:114-128 `EncryptAndReturnRandomness` over a random tape, the retry loop of the
randomness running at most `fuel` rounds (outer none: still running). Returns (c, x, rest of tape). -/
def EncryptAndReturnRandomness (N m : Int) (fuel : Nat) (tape : Bytes) : Option (Res PErr (Int × Int × Bytes)) :=
  if m < 0 ∨ ¬ m < N then some (.err .tooLong)
  else match GetRandomPositiveRelativelyPrimeInt (some N) fuel tape with
    | none => none
    | some (.ok (some x, rest)) =>
      match cipher N m x with
      | some c => some (.ok (c, x, rest))
      | none => some .panic
    | some (.ok (none, _)) => some .panic
    | some (.err _) => some .panic
    | some .panic => some .panic

/-- crypto/paillier/paillier.go:130-133 `Encrypt`. -/
def Encrypt (N m : Int) (fuel : Nat) (tape : Bytes) : Option (Res PErr Int) :=
  match EncryptAndReturnRandomness N m fuel tape with
  | none => none
  | some (.ok (c, _, _)) => some (.ok c)
  | some (.err e) => some (.err e)
  | some .panic => some .panic

/-- crypto/paillier/paillier.go:135-145 `HomoMult`.  The result of `Exp` is returned as it is. -/
def HomoMult (N m c1 : Int) : Res PErr (Option Int) :=
  if m < 0 ∨ ¬ m < N then .err .tooLong
  else if c1 < 0 ∨ ¬ c1 < nSquare N then .err .tooLong
  else .ok (modExp (nSquare N) c1 m)

/-- crypto/paillier/paillier.go:147-157 `HomoAdd`. -/
def HomoAdd (N c1 c2 : Int) : Res PErr Int :=
  if c1 < 0 ∨ ¬ c1 < nSquare N then .err .tooLong
  else if c2 < 0 ∨ ¬ c2 < nSquare N then .err .tooLong
  else match modMul (nSquare N) c1 c2 with
    | .ok c => .ok c
    | _ => .panic

/-- crypto/paillier/paillier.go:259-262 `L` (`Div` is Euclidean; N = 0 would panic). -/
def L (u N : Int) : Int := (u - 1) / N

/-- crypto/paillier/paillier.go:172-192 `Decrypt`; a nil power or inverse is dereferenced. -/
def Decrypt (sk : PrivateKey) (c : Int) : Res PErr Int :=
  let N2 := nSquare sk.N
  if c < 0 ∨ ¬ c < N2 then .err .tooLong
  else if 1 < Int.gcd c N2 then .err .malFormed
  else match bigExp c sk.lambdaN N2, bigExp (gamma sk.N) sk.lambdaN N2 with
    | some uc, some ug =>
      match modInverse (L ug sk.N) sk.N with
      | some inv =>
        match modMul sk.N (L uc sk.N) inv with
        | .ok m => .ok m
        | _ => .panic
      | none => .panic
    | _, _ => .panic

/-! ### Key generation -/

/-- crypto/paillier/paillier.go:36 `pQBitLenDifference`. -/
def pQBitLenDifference : Int := 3

/-- crypto/paillier/paillier.go:97-109: the key made from two primes. -/
def mkKey (P Q : Int) : PrivateKey :=
  let phi := (P - 1) * (Q - 1)
  { N := P * Q
    lambdaN := phi / (Int.gcd (P - 1) (Q - 1) : Int)
    phiN := phi
    P := P
    Q := Q }

/-- crypto/paillier/paillier.go:83-95: the retry loop.  `deliver i` is the result of the i-th call of
`GetRandomSafePrimesConcurrent(ctx, bits, 2, …)`: the safe primes of the returned pairs, or its error
(modelled in Model/SafePrime); a list shorter than 2 panics on the index.  none: still running. -/
def genLoop {ε : Type} (half : Int) (deliver : Nat → Res ε (List Int)) : Nat → Nat → Option (Res ε PrivateKey)
  | 0, _ => none
  | f + 1, i =>
    match deliver i with
    | .err e => some (.err e)
    | .panic => some .panic
    | .ok (P :: Q :: _) =>
      if (bitLen (P - Q) : Int) ≥ half - pQBitLenDifference then some (.ok (mkKey P Q))
      else genLoop half deliver f (i + 1)
    | .ok _ => some .panic

/-- crypto/paillier/paillier.go:70-110 `GenerateKeyPair`; `modulusBitLen/2` truncates toward zero.  The
optional-concurrency panic is modelled by its length. -/
def GenerateKeyPair {ε : Type} (modulusBitLen : Int) (nOptional : Nat) (deliver : Nat → Res ε (List Int)) (fuel : Nat) :
    Option (Res ε PrivateKey) :=
  if 1 < nOptional then some .panic
  else genLoop (Int.tdiv modulusBitLen 2) deliver fuel 0

/-! ### Proof that N is square-free -/

/-- crypto/paillier/paillier.go:34 `ProofIters`. -/
def proofIters : Nat := 13

/-- crypto/paillier/paillier.go:274-275 `int(Ceil(float64(bits)/256))` (exact: bits < 2^53). -/
def blocks (N : Int) : Nat := (bitLen N + 255) / 256

/-- crypto/paillier/paillier.go:281-299: the concatenated hashes of one candidate.  The goroutines write to
separate unbuffered channels that are read in index order, so the result is the in-order concatenation. -/
def candidate (H : Bytes → Bytes) (k sX sY N : Int) (i n : Nat) : Bytes :=
  (List.range (blocks N)).flatMap fun j =>
    (SHA512_256 H [itoa i, itoa j, itoa n, intBytes k, intBytes sX, intBytes sY, intBytes N]).getD []

/-- crypto/paillier/paillier.go:280-306 the loop of `GenerateXs`, `need` values still to be found; none: still
running after `fuel` rounds. -/
def genXs (H : Bytes → Bytes) (k sX sY N : Int) : Nat → Nat → Nat → Nat → Option (List Int)
  | _, 0, _, _ => some []
  | 0, _ + 1, _, _ => none
  | f + 1, need + 1, i, n =>
    let x : Int := beNat (candidate H k sX sY N i n)
    if IsNumberInMultiplicativeGroup (some N) (some x) then
      match genXs H k sX sY N f need (i + 1) n with
      | some l => some (x :: l)
      | none => none
    else genXs H k sX sY N f (need + 1) i (n + 1)

/-- crypto/paillier/paillier.go:265-308 `GenerateXs`. -/
def GenerateXs (H : Bytes → Bytes) (m : Nat) (k N sX sY : Int) (fuel : Nat) : Option (List Int) :=
  genXs H k sX sY N fuel m 0 0

/-- crypto/paillier/paillier.go:200-209 `Proof` (a nil inverse is dereferenced by `Exp`; so is a nil modulus). -/
def Proof (H : Bytes → Bytes) (sk : PrivateKey) (k sX sY : Int) (fuel : Nat) : Option (Res Unit (List (Option Int))) :=
  match GenerateXs H proofIters k sk.N sX sY fuel with
  | none => none
  | some xs =>
    match modInverse sk.N sk.phiN with
    | none => some .panic
    | some M => some (.ok (xs.map fun x => bigExp x M sk.N))

/-- Trial division. -/
def isPrimeB (n : Nat) : Bool := decide (2 ≤ n) && (List.range n).all fun d => decide (d < 2) || decide (n % d ≠ 0)

/-- crypto/paillier/paillier.go:214 `primes.Until(1000).List()` (library github.com/otiai10/primes). -/
def smallPrimes : List Nat := (List.range 1001).filter isPrimeB

/-- crypto/paillier/paillier.go:215-224: the divisibility goroutine. -/
def primeScan (N : Int) : List Nat → Bool
  | [] => true
  | p :: t => if N % (p : Int) = 0 then false else primeScan N t

/-- crypto/paillier/paillier.go:239-245: the comparison loop, in order; a nil response is dereferenced. -/
def checkXs (N : Int) : List Int → List (Option Int) → Res Unit Bool
  | [], _ => .ok true
  | _ :: _, [] => .panic
  | _ :: _, none :: _ => .panic
  | x :: xs, some y :: ys =>
    match bigExp y N N with
    | none => .panic
    | some r => if x % N ≠ r then .ok false else checkXs N xs ys

/-- Which of two ready channels a `select` takes first. -/
inductive Order where
  | primesFirst
  | xsFirst
  deriving DecidableEq

/-- crypto/paillier/paillier.go:235-246: handling of the received challenges. -/
def onXs (N : Int) (pf : List (Option Int)) (xs : List Int) : Res String Bool :=
  if xs.length ≠ proofIters then .err "paillier proof verify: expected xs"
  else match checkXs N xs pf with
    | .ok b => .ok b
    | .err _ => .panic
    | .panic => .panic

/-- crypto/paillier/paillier.go:211-250 `Verify`; `xs` is what the challenge goroutine has delivered (none: it is
still running), `order` the choice of the scheduler and of `select`.  When the challenges are not there, only
the other channel can be received. none: `Verify` is still waiting. -/
def verifyWith (order : Order) (N : Int) (pf : List (Option Int)) (xs : Option (List Int)) : Option (Res String Bool) :=
  match order, xs with
  | .xsFirst, some xs =>
    match onXs N pf xs with
    | .ok true => some (.ok (primeScan N smallPrimes))
    | r => some r
  | .primesFirst, some xs => if primeScan N smallPrimes then some (onXs N pf xs) else some (.ok false)
  | _, none => if primeScan N smallPrimes then none else some (.ok false)

/-- crypto/paillier/paillier.go:211-250 `Verify` with `GenerateXs` run for `fuel` rounds. -/
def Verify (H : Bytes → Bytes) (order : Order) (pf : List (Option Int)) (N k sX sY : Int) (fuel : Nat) :
    Option (Res String Bool) :=
  verifyWith order N pf (GenerateXs H proofIters k N sX sY fuel)

end Tss.Paillier
