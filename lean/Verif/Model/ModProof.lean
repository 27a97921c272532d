import Verif.Model.Common
import Mathlib.NumberTheory.LegendreSymbol.JacobiSymbol
/-
Model of /repo/crypto/modproof/proof.go and of GetRandomQuadraticNonResidue (/repo/common/random.go).
The arrays of 80 pointers are lists of `Option Int` (nil is none) of length 80.
`big.Int.ProbablyPrime(30)` is the parameter `prime`.
-/
namespace Tss.ModProof
open Tss Common

/-- `big.Jacobi(x, y)`: panics (none) for even y; for negative y the symbol of |y|, negated when x is negative too. -/
def jacobi (x y : Int) : Option Int :=
  if y % 2 = 0 then none
  else if y < 0 ∧ x < 0 then some (-jacobiSym x y.natAbs)
  else some (jacobiSym x y.natAbs)

/-- common/random.go:107-114 `GetRandomQuadraticNonResidue`, run for at most `fuel` rounds of either loop (a nil draw,
for n ≤ 0, panics in `big.Jacobi`). -/
def nonResidueLoop (n : Int) (inner : Nat) : Nat → Bytes → Run (Int × Bytes)
  | 0, _ => none
  | f + 1, tape =>
    match GetRandomPositiveInt (some n) inner tape with
    | none => none
    | some (.ok (some w, rest)) =>
      match jacobi w n with
      | none => some .panic
      | some s => if s = -1 then some (.ok (w, rest)) else nonResidueLoop n inner f rest
    | some (.ok (none, _)) => some .panic
    | some (.err _) => some (.err ())
    | some .panic => some .panic

/-- common/random.go:107-114. -/
def GetRandomQuadraticNonResidue (n : Int) (fuel : Nat) (tape : Bytes) : Run (Int × Bytes) :=
  nonResidueLoop n fuel fuel tape

/-- proof.go:19 `Iterations`. -/
def Iterations : Nat := 80

/-- proof.go:20 `ProofModBytesParts`. -/
def Parts : Nat := Iterations * 2 + 3

/-- proof.go:25-32 `ProofMod`. -/
structure Proof where
  W : Option Int
  X : List (Option Int)
  A : Option Int
  B : Option Int
  Z : List (Option Int)
  deriving DecidableEq

/-- proof.go:36-38 `isQuadraticResidue`. -/
def isQuadraticResidue (x n : Int) : Res Unit Bool :=
  match jacobi x n with
  | none => .panic
  | some s => .ok (decide (s = 1))

/-- proof.go:46-49 (= 142-145): the challenges, each hashing those before it. -/
def genY (H : Bytes → Bytes) (session : Bytes) (w n : Int) : Nat → List Int → Res Unit (List Int)
  | 0, ys => .ok ys
  | k + 1, ys =>
    match SHA512_256i_TAGGED H session (some w :: some n :: ys.map some) with
    | none => .panic
    | some e =>
      match RejectionSample n e with
      | .ok y => genY H session w n k (ys ++ [y])
      | .err e => .err e
      | .panic => .panic

/-- proof.go:69-75 (= 183-189): multiply `y` by -1 when `a` and by `w` when `b`, each time reduced modulo N (not zero
here). -/
def twist (n w y : Int) (a b : Bool) : Int :=
  let y1 := if a then (-1) * y % n else y
  if b then w * y1 % n else y1

/-- proof.go:66-84: the inner loop from `j` on: the first of the four twists that is a quadratic residue modulo P and
Q. -/
def pick (n p q w y : Int) : Nat → Nat → Res Unit (Option (Bool × Bool))
  | 0, _ => .ok none
  | k + 1, j =>
    let a := j % 2 = 1
    let b := j / 2 % 2 = 1
    match isQuadraticResidue (twist n w y a b) p with
    | .ok true =>
      match isQuadraticResidue (twist n w y a b) q with
      | .ok true => .ok (some (a, b))
      | .ok false => pick n p q w y k (j + 1)
      | .err e => .err e
      | .panic => .panic
    | .ok false => pick n p q w y k (j + 1)
    | .err e => .err e
    | .panic => .panic

/-- One iteration of the prover: x, z and the two bits. -/
structure Item where
  x : Option Int
  z : Option Int
  a : Bool
  b : Bool
  deriving DecidableEq

/-- proof.go:65-85: one iteration. With no suitable twist nothing is stored (nil x and z, bits 0). A nil `invN` panics
in `Exp`. -/
def item (n p q w expo : Int) (invN : Option Int) (y : Int) : Res Unit Item :=
  match pick n p q w y 4 0 with
  | .ok none => .ok ⟨none, none, false, false⟩
  | .ok (some (a, b)) =>
    match invN with
    | none => .panic
    | some v => .ok ⟨bigExp (twist n w y a b) expo n, bigExp y v n, a, b⟩
  | .err e => .err e
  | .panic => .panic

/-- proof.go:65-86: the loop over the challenges. -/
def items (n p q w expo : Int) (invN : Option Int) : List Int → Res Unit (List Item)
  | [] => .ok []
  | y :: ys =>
    match item n p q w expo invN y with
    | .ok it =>
      match items n p q w expo invN ys with
      | .ok r => .ok (it :: r)
      | .err e => .err e
      | .panic => .panic
    | .err e => .err e
    | .panic => .panic

/-- proof.go:56-57, 80-81: 2^len with bit i set to the i-th element (each bit starts at 0 and is set at most once). -/
def packBits : List Bool → Nat
  | [] => 1
  | b :: t => 2 * packBits t + (if b then 1 else 0)

/-- proof.go:52-54, 61-63: the modulus φ, and the exponent of the fourth root. -/
def phi (p q : Int) : Int := (p - 1) * (q - 1)

/-- proof.go:61-63 `expo` (`Rsh` is a floor division; a zero φ panics earlier, in ModInverse or Mod). -/
def expo (p q : Int) : Int := ((phi p q + 4) / 8 * ((phi p q + 4) / 8)) % phi p q

/-- proof.go:44-90: the prover after drawing W. -/
def proveWith (H : Bytes → Bytes) (session : Bytes) (n p q w : Int) : Res Unit Proof :=
  match genY H session w n Iterations [] with
  | .ok ys =>
    if phi p q = 0 then .panic
    else
      match items n p q w (expo p q) (modInverse n (phi p q)) ys with
      | .ok its =>
        .ok ⟨some w, its.map Item.x, some (packBits (its.map Item.a) : Nat), some (packBits (its.map Item.b) : Nat),
          its.map Item.z⟩
      | .err e => .err e
      | .panic => .panic
  | .err e => .err e
  | .panic => .panic

/-- proof.go:40-91 `NewProof`. -/
def NewProof (H : Bytes → Bytes) (session : Bytes) (n p q : Int) (fuel : Nat) (tape : Bytes) : Run (Proof × Bytes) :=
  match GetRandomQuadraticNonResidue n fuel tape with
  | none => none
  | some (.ok (w, rest)) =>
    match proveWith H session n p q w with
    | .ok pf => some (.ok (pf, rest))
    | .err e => some (.err e)
    | .panic => some .panic
  | some (.err e) => some (.err e)
  | some .panic => some .panic

/-- proof.go:93-116 `NewProofFromBytes`. -/
def NewProofFromBytes (bzs : List Bytes) : Option Proof :=
  if ¬ NonEmptyMultiBytes bzs (some (Parts : Int)) then none
  else
    let bis := bzs.map fun b => some (beNat b : Int)
    some ⟨bis.getD 0 none, (bis.drop 1).take Iterations, bis.getD (Iterations + 1) none,
      bis.getD (Iterations + 2) none, bis.drop (Iterations + 3)⟩

/-- proof.go:207-227 `ValidateBasic`. -/
def ValidateBasic (p : Proof) : Bool :=
  p.W.isSome && p.X.all Option.isSome && p.A.isSome && p.B.isSome && p.Z.all Option.isSome

/-- `z.Bit(i)` (two's complement for negative z). -/
def bit (z : Int) (i : Nat) : Bool := z / 2 ^ i % 2 = 1

/-- proof.go:128-133, 133-137: every element is positive and below N. -/
def inRange (n : Int) : List (Option Int) → Bool
  | [] => true
  | none :: _ => false
  | some v :: r => decide (0 < v) && decide (v < n) && inRange n r

/-- proof.go:156-163: the first goroutine of iteration i; its message on the channel. -/
def rootCheck (n y : Int) (z : Option Int) : Bool :=
  match z with
  | none => false
  | some z => bigExp z n n = some y

/-- proof.go:165-193: the second goroutine of iteration i; its message on the channel. -/
def fourthCheck (n w y : Int) (x : Option Int) (a b : Bool) : Bool :=
  match x with
  | none => false
  | some x => bigExp x 4 n = some (twist n w y a b)

/-- proof.go:154-194: the messages of the 160 goroutines: number 2i is the i-th root check, 2i+1 the i-th fourth-power
check. -/
def messages (n w a b : Int) : Nat → List Int → List (Option Int) → List (Option Int) → List Bool
  | i, y :: ys, x :: xs, z :: zs =>
    rootCheck n y z :: fourthCheck n w y x (bit a i) (bit b i) :: messages n w a b (i + 1) ys xs zs
  | _, _, _, _ => []

/-- proof.go:196-200: the receiving loop, given the order in which the messages arrive. -/
def receive : List Bool → Bool
  | [] => true
  | m :: r => if !m then false else receive r

/-- proof.go:118-205 `Verify`; `order` is the order in which the scheduler lets the goroutines deliver their messages. -/
def Verify (H : Bytes → Bytes) (prime : Int → Bool) (session : Bytes) (n : Int) (pf : Option Proof)
    (order : List Nat) : Res Unit Bool :=
  match pf with
  | none => .ok false
  | some p =>
    if ¬ ValidateBasic p then .ok false
    else
      match p.W, p.A, p.B with
      | some w, some a, some b =>
        match isQuadraticResidue w n with
        | .ok true => .ok false
        | .ok false =>
          if ¬ (0 < w ∧ w < n) then .ok false
          else if ¬ inRange n p.Z then .ok false
          else if ¬ inRange n p.X then .ok false
          else if bitLen a ≠ Iterations + 1 then .ok false
          else if bitLen b ≠ Iterations + 1 then .ok false
          else
            match genY H session w n Iterations [] with
            | .ok ys =>
              if n % 2 = 0 ∨ prime n then .ok false
              else
                let ms := messages n w a b 0 ys p.X p.Z
                .ok (receive (order.map fun k => ms.getD k false))
            | .err e => .err e
            | .panic => .panic
        | .err e => .err e
        | .panic => .panic
      | _, _, _ => .ok false

/-- proof.go:229-246 `Bytes` (nil W, A or B panics; nil entries of X, Z stay empty). -/
def toBytes (p : Proof) : Res Unit (List Bytes) :=
  match p.W, p.A, p.B with
  | some w, some a, some b =>
    let part := fun (o : Option Int) => match o with | none => [] | some v => intBytes v
    .ok (intBytes w :: p.X.map part ++ intBytes a :: intBytes b :: p.Z.map part)
  | _, _, _ => .panic

end Tss.ModProof
