/-
Model of the Go run-time notions the code base uses: byte strings, `math/big` integers,
outcomes of calls.  Nothing here models a file of /repo; it models the standard library
functions the files of /repo call, by their documentation.
-/
namespace Tss

/-- Go `[]byte` (contents only: nil and empty coincide, capacity is not modelled). -/
abbrev Bytes := List UInt8

/-- Outcome of a Go call: a value, a returned error, or a run-time panic. -/
inductive Res (ε : Type) (α : Type) where
  | ok (a : α)
  | err (e : ε)
  | panic
  deriving DecidableEq, Repr

namespace Res
variable {ε α β : Type}

/-- Sequencing of calls: an error return is propagated by the caller, a panic unwinds. -/
def bind (r : Res ε α) (f : α → Res ε β) : Res ε β :=
  match r with
  | ok a => f a
  | err e => err e
  | panic => panic

/-- The call returned normally with a value. -/
def isOk : Res ε α → Bool
  | ok _ => true
  | _ => false

/-- Turn an absent value (nil dereference, bad index) into a panic. -/
def ofOption : Option α → Res ε α
  | some a => ok a
  | none => panic

/-- Turn an absent value into an error return. -/
def orErr (o : Option α) (e : ε) : Res ε α :=
  match o with
  | some a => ok a
  | none => err e

instance : Monad (Res ε) where
  pure := ok
  bind := bind

end Res

/-- `big.Int.SetBytes`: the big-endian value of a byte string. -/
def beNat (b : Bytes) : Nat := b.foldl (fun a x => a * 256 + x.toNat) 0

/-- Little-endian value of a byte string. -/
def leNat : Bytes → Nat
  | [] => 0
  | x :: t => x.toNat + 256 * leNat t

/-- Minimal little-endian bytes of `n`, with fuel. -/
def natLEAux : Nat → Nat → Bytes
  | 0, _ => []
  | f + 1, n => if n = 0 then [] else UInt8.ofNat n :: natLEAux f (n / 256)

/-- Minimal little-endian bytes of `n` (empty for 0). -/
def natLE (n : Nat) : Bytes := natLEAux n n

/-- `big.Int.Bytes` of a non-negative integer: minimal big-endian bytes, empty for 0. -/
def natBE (n : Nat) : Bytes := (natLE n).reverse

/-- `big.Int.Bytes`: big-endian bytes of the absolute value. -/
def intBytes (z : Int) : Bytes := natBE z.natAbs

/-- Exactly `k` little-endian bytes of `n mod 256^k`. -/
def leFixed : Nat → Nat → Bytes
  | 0, _ => []
  | k + 1, n => UInt8.ofNat n :: leFixed k (n / 256)

/-- `binary.LittleEndian.PutUint64` into a fresh 8-byte buffer. -/
def le64 (n : Nat) : Bytes := leFixed 8 n

/-- Exactly `k` big-endian bytes of `n mod 256^k`
(`big.Int.FillBytes` when `n < 256^k`; `FillBytes` panics otherwise). -/
def beFixed (k n : Nat) : Bytes := (leFixed k n).reverse

/-- `big.Int.FillBytes` on a buffer of `k` bytes: panics (none) when the value does not fit. -/
def fillBytes (k : Nat) (z : Int) : Option Bytes :=
  if z.natAbs < 256 ^ k then some (beFixed k z.natAbs) else none

/-- `big.Int.BitLen`: number of bits of the absolute value. -/
def bitLen (z : Int) : Nat := if z.natAbs = 0 then 0 else z.natAbs.log2 + 1

/-- Extended Euclid with fuel: coefficients `(x, y)` with `a*x + b*y = gcd a b`. -/
def bezoutAux : Nat → Nat → Nat → Int × Int
  | 0, _, _ => (1, 0)
  | f + 1, a, b =>
    if b = 0 then (1, 0)
    else
      let p := bezoutAux f b (a % b)
      (p.2, p.1 - ((a / b : Nat) : Int) * p.2)

/-- Bezout coefficients of two naturals. -/
def bezout (a b : Nat) : Int × Int := bezoutAux (b + 1) a b

/-- `big.Int.ModInverse(g, n)` for `n ≠ 0`: nil iff `g` is not invertible modulo `n`,
otherwise the inverse in `[0,|n|)`. -/
def modInverse (g n : Int) : Option Int :=
  if Int.gcd g n = 1 then some ((bezout (g % n).toNat n.natAbs).1 % n) else none

/-- `big.Int.Exp(x, y, m)` (`m = 0` stands for nil or zero): without modulus `x^y`, 1 for `y ≤ 0`;
with modulus the Euclidean residue of `x^y`, using the inverse of `x` for negative `y`,
and nil (none) when that inverse does not exist. -/
def bigExp (x y m : Int) : Option Int :=
  if m = 0 then some (if y ≤ 0 then 1 else x ^ y.toNat)
  else if y < 0 then
    match modInverse x m with
    | some xi => some (xi ^ (-y).toNat % m)
    | none => none
  else some (x ^ y.toNat % m)

end Tss
