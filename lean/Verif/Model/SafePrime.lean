import Verif.Model.Go
/-
Model of /repo/common/safe_prime.go. `math/big.ProbablyPrime(k)` is the parameter `pp k`. The workers, channels,
contexts and the collecting loop are a transition system whose runs are all the interleavings; the random reader may
deliver any bytes, or fail, at any read.
-/
namespace Tss.SafePrime
open Tss

/-- safe_prime.go:23-27 `GermainSafePrime` (Set, Prime, SafePrime are its accessors, 29-40). -/
structure Pair where
  p : Nat
  q : Nat
  deriving DecidableEq

/-- safe_prime.go:50-55 `getSafePrime`. -/
def getSafePrime (p : Nat) : Nat := p * 2 + 1

/-- safe_prime.go:42-46, 57-59 `Validate`, `probablyPrime` (primeTestN = 30; the numbers here are never nil). -/
def Validate (pp : Nat → Nat → Bool) (s : Pair) : Bool :=
  pp 30 s.q && decide (getSafePrime s.q = s.p) && pp 30 s.p

/-- safe_prime.go:92-94 `smallPrimes`. -/
def smallPrimes : List Nat := [3, 5, 7, 11, 13, 17, 19, 23, 29, 31, 37, 41, 43, 47, 53]

/-- safe_prime.go:100 `smallPrimesProduct`. -/
def smallPrimesProduct : Nat := 16294579238595022365

/-- safe_prime.go:334-342 `isPrimeCandidate`. -/
def isPrimeCandidate (number : Nat) : Bool :=
  let m := number % smallPrimesProduct
  smallPrimes.all fun pr => !(decide (m % pr = 0) && decide (m ≠ pr))

/-- safe_prime.go:326-332 `isPocklingtonCriterionSatisfied` (p = 0 computes 2^(-1) without modulus, which is 1). -/
def isPocklington (p : Nat) : Bool := decide (bigExp 2 ((p : Int) - 1) (p : Int) = some 1)

/-- safe_prime.go:201-204: the number of bits used in the first byte. -/
def topBits (qBits : Nat) : Nat := if qBits % 8 = 0 then 8 else qBits % 8

/-- safe_prime.go:231-247: the first byte: masked to b bits, with its top two bits set (one, when b = 1). -/
def firstByte (b : Nat) (x : UInt8) : UInt8 :=
  let x := x &&& UInt8.ofNat (2 ^ b - 1)
  if 2 ≤ b then x ||| UInt8.ofNat (3 * 2 ^ (b - 2)) else x ||| 1

/-- safe_prime.go:244-246: with one bit in the first byte, the second gets its top bit set. -/
def secondByte (b : Nat) : Bytes → Bytes
  | [] => []
  | y :: t => (if 2 ≤ b then y else y ||| 0x80) :: t

/-- safe_prime.go:250: the last byte made odd. -/
def setOdd : Bytes → Bytes
  | [] => []
  | [x] => [x ||| 1]
  | x :: y :: t => x :: setOdd (y :: t)

/-- safe_prime.go:229-252: the candidate made from the bytes read. -/
def candidate (qBits : Nat) (bytes : Bytes) : Nat :=
  match bytes with
  | [] => 0
  | x :: t => beNat (setOdd (firstByte (topBits qBits) x :: secondByte (topBits qBits) t))

/-- safe_prime.go:263-267: the small-prime test of `mod + delta` (below 2^64: no overflow). -/
def hitsSmallPrime (qBits m : Nat) : Bool :=
  smallPrimes.any fun pr => decide (m % pr = 0) && (decide (6 < qBits) || decide (m ≠ pr))

/-- safe_prime.go:260-301: the loop over delta, with the numbers p and q as it leaves them; q grows by each delta tried
(the additions accumulate), and p is the value of the last candidate that passed the test modulo 3. -/
def deltaLoop (qBits mod : Nat) : Nat → Nat → Nat → Nat → Nat × Nat
  | 0, _, p, q => (p, q)
  | k + 1, delta, p, q =>
    if hitsSmallPrime qBits (mod + delta) then deltaLoop qBits mod k (delta + 2) p q
    else
      let q := if 0 < delta then q + delta else q
      if q % 3 = 1 then deltaLoop qBits mod k (delta + 2) p q
      else
        let p := q * 2 + 1
        if !isPrimeCandidate p then deltaLoop qBits mod k (delta + 2) p q else (p, q)

/-- safe_prime.go:229-318: one iteration of a worker on the bytes read, from the number p left by the previous one: the
pair to be sent, if any, and the numbers left. (1 << 20 by steps of 2 is 2^19 iterations.) -/
def iteration (pp : Nat → Nat → Bool) (qBits p : Nat) (bytes : Bytes) : Option Pair × Nat × Nat :=
  let q0 := candidate qBits bytes
  let (p, q) := deltaLoop qBits (q0 % smallPrimesProduct) (2 ^ 19) 0 p q0
  if pp 20 q && isPocklington p && decide (bitLen (q : Int) = qBits) then
    if Validate pp ⟨p, q⟩ then (some ⟨p, q⟩, 0, 0) else (none, 0, 0)
  else (none, p, q)

/-! ### The concurrent search -/

/-- Where a worker is (safe_prime.go:214-321): at the head of its loop, past the check of its context, about to send a
pair, about to send an error, or finished. `p`, `q` are its two numbers. -/
inductive W (ε : Type) where
  | top (p q : Nat)
  | busy (p q : Nat)
  | sending (s : Pair)
  | failing (e : ε)
  | done

/-- What the call returns. -/
inductive Result (ε : Type) where
  | primes (l : List Pair)
  | failed (e : ε)
  | cancelled

/-- Where the calling goroutine is (safe_prime.go:137-175): collecting, returning but not yet cancelled (the deferred
calls have not begun), waiting for the workers, or back in the caller. -/
inductive Main (ε : Type) where
  | collecting (got : List Pair)
  | leaving (r : Result ε)
  | waiting (r : Result ε)
  | returned (r : Result ε)

/-- The state of one call. -/
structure St (ε : Type) where
  ws : List (W ε)
  primeCh : List Pair
  errCh : List ε
  /-- the caller's context is done -/
  parentDone : Bool
  /-- the generators' context is done -/
  genDone : Bool
  main : Main ε

/-- Arguments of the call. -/
structure Cfg where
  pp : Nat → Nat → Bool
  bitLen : Nat
  numPrimes : Nat
  concurrency : Nat

/-- safe_prime.go:137 capacity of `primeCh`. -/
def Cfg.cap (c : Cfg) : Nat := c.concurrency * c.numPrimes

/-- safe_prime.go:137-155: the state once the workers have been started. -/
def init {ε : Type} (c : Cfg) : St ε :=
  ⟨List.replicate c.concurrency (.top 0 0), [], [], false, false, .collecting []⟩

/-- safe_prime.go:129-136, 137: the checks before anything is started (a negative channel size panics). -/
def start {ε : Type} (pp : Nat → Nat → Bool) (bits numPrimes concurrency : Int) : Res String (Cfg × St ε) :=
  if bits < 6 then .err "safe prime size must be at least 6 bits"
  else if numPrimes < 1 then .err "numPrimes should be > 0"
  else if concurrency < 0 then .panic
  else
    let c : Cfg := ⟨pp, bits.toNat, numPrimes.toNat, concurrency.toNat⟩
    .ok (c, init c)

/-- What a worker does with the outcome of an iteration (safe_prime.go:306-318). -/
def afterIteration {ε : Type} : Option Pair × Nat × Nat → W ε
  | (some s, _, _) => .sending s
  | (none, p, q) => .top p q

/-- safe_prime.go:157-165: the collecting loop after receiving a pair (`needed` counts down from numPrimes, below 2^31). -/
def onPrime {ε : Type} (numPrimes : Nat) (got : List Pair) (s : Pair) : Main ε :=
  if numPrimes ≤ (got ++ [s]).length then .leaving (.primes ((got ++ [s]).take numPrimes)) else .collecting (got ++ [s])

/-- One step of the program itself. -/
inductive Step {ε : Type} (c : Cfg) : St ε → St ε → Prop
  /-- 218-220: a worker sees its context done -/
  | stop {s l r p q} : s.ws = l ++ .top p q :: r → s.genDone = true → Step c s { s with ws := l ++ .done :: r }
  /-- 218, 221: a worker finds its context not done -/
  | begin {s l r p q} : s.ws = l ++ .top p q :: r → s.genDone = false → Step c s { s with ws := l ++ .busy p q :: r }
  /-- 222-223: the reader fails -/
  | readErr {s l r p q} (e : ε) : s.ws = l ++ .busy p q :: r → Step c s { s with ws := l ++ .failing e :: r }
  /-- 222-312: the reader delivers bytes and the candidate is examined -/
  | compute {s l r p q} (bytes : Bytes) : s.ws = l ++ .busy p q :: r → bytes.length = (c.bitLen - 1 + 7) / 8 →
      Step c s { s with ws := l ++ afterIteration (iteration c.pp (c.bitLen - 1) p bytes) :: r }
  /-- 313, 316: the pair goes into the channel, if there is room -/
  | send {s l r pr} : s.ws = l ++ .sending pr :: r → s.primeCh.length < c.cap →
      Step c s { s with ws := l ++ .top 0 0 :: r, primeCh := s.primeCh ++ [pr] }
  /-- 224-225: the error goes into its channel, if there is room -/
  | fail {s l r e} : s.ws = l ++ .failing e :: r → s.errCh.length < c.concurrency →
      Step c s { s with ws := l ++ .done :: r, errCh := s.errCh ++ [e] }
  /-- 160-164 -/
  | recvPrime {s got pr rest} : s.main = .collecting got → s.primeCh = pr :: rest →
      Step c s { s with primeCh := rest, main := onPrime c.numPrimes got pr }
  /-- 165-166 -/
  | recvErr {s got e rest} : s.main = .collecting got → s.errCh = e :: rest →
      Step c s { s with errCh := rest, main := .leaving (.failed e) }
  /-- 167-168 -/
  | recvDone {s got} : s.main = .collecting got → s.parentDone = true → Step c s { s with main := .leaving .cancelled }
  /-- 148: the deferred cancellation -/
  | cancel {s r} : s.main = .leaving r → Step c s { s with genDone := true, main := .waiting r }
  /-- 143-145: the wait is over once every worker has finished; then the channels are closed -/
  | finish {s r} : s.main = .waiting r → (∀ w ∈ s.ws, w = .done) → Step c s { s with main := .returned r }
  /-- context: the cancellation of the caller's context reaches the generators' context -/
  | propagate {s} : s.parentDone = true → s.genDone = false → Step c s { s with genDone := true }

/-- A step of the program, or the caller's context being cancelled from outside. -/
inductive Any {ε : Type} (c : Cfg) : St ε → St ε → Prop
  | step {s t} : Step c s t → Any c s t
  | cancelParent {s} : s.parentDone = false → Any c s { s with parentDone := true }

/-- Any number of steps. -/
inductive Run {ε : Type} (c : Cfg) : St ε → St ε → Prop
  | refl {s} : Run c s s
  | tail {s t u} : Run c s t → Any c t u → Run c s u

end Tss.SafePrime
