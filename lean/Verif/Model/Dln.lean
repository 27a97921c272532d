import Verif.Model.Commitments
/-
Model of /repo/crypto/dlnproof/proof.go.  The two arrays of 128 pointers are lists of `Option Int` (nil is none) of
length 128.
-/
namespace Tss.Dln
open Tss Common Commit

/-- proof.go:23 `Iterations`. -/
def Iterations : Nat := 128

/-- proof.go:25-30 `Proof`. -/
structure Proof where
  Alpha : List (Option Int)
  T : List (Option Int)
  deriving DecidableEq

/-- `c.Bit(i)` of a non-negative integer. -/
def bit (c : Int) (i : Nat) : Int := if c.natAbs.testBit i then 1 else 0

/-- proof.go:36-55 `NewDLNProof`; `a i` is the i-th draw of `GetRandomPositiveInt(rand, p*q)` (nil, and so a panic, when
p*q is not positive).  A nil commitment (negative N is not excluded) makes the hash panic. -/
def NewDLNProof (H : Bytes → Bytes) (h1 h2 x p q N : Int) (a : Nat → Int) : Res Unit Proof :=
  if p * q ≤ 0 then .panic
  else
    let alpha := (List.range Iterations).map fun i => bigExp h1 (a i) N
    match SHA512_256i H (some h1 :: some h2 :: some N :: alpha) with
    | .ok (some c) => .ok ⟨alpha, (List.range Iterations).map fun i => some ((a i + (bit c i * x) % (p * q)) % (p * q))⟩
    | _ => .panic

/-- proof.go:77-88: every element reduced modulo N must exceed 1; nil elements are dereferenced. -/
def allAboveOne (N : Int) : List (Option Int) → Res Unit Bool
  | [] => .ok true
  | none :: _ => .panic
  | some t :: r => if 1 < t % N then allAboveOne N r else .ok false

/-- proof.go:92-105: the equations, from index `i` on. A nil power panics in `Cmp`. -/
def equations (h1 h2 N c : Int) : Nat → List (Option Int) → List (Option Int) → Res Unit Bool
  | i, some al :: as, some t :: ts =>
    match bigExp h1 t N, bigExp h2 (bit c i) N with
    | some l, some r => if l = al * r % N then equations h1 h2 N c (i + 1) as ts else .ok false
    | _, _ => .panic
  | _, [], _ => .ok true
  | _, _, [] => .ok true
  | _, _, _ => .ok false

/-- proof.go:57-107 `Verify`; a nil proof is none. -/
def Verify (H : Bytes → Bytes) (pf : Option Proof) (h1 h2 N : Int) : Res Unit Bool :=
  match pf with
  | none => .ok false
  | some p =>
    if N ≤ 0 then .ok false
    else if ¬ 1 < h1 % N then .ok false
    else if ¬ 1 < h2 % N then .ok false
    else if h1 % N = h2 % N then .ok false
    else match allAboveOne N p.T with
      | .ok true =>
        match allAboveOne N p.Alpha with
        | .ok true =>
          match SHA512_256i H (some h1 :: some h2 :: some N :: p.Alpha) with
          | .ok (some c) => equations h1 h2 N c 0 p.Alpha p.T
          | _ => .panic
        | o => o
      | o => o

/-- proof.go:109-125 `Serialize`. -/
def Serialize (p : Proof) : Res Err (List Bytes) :=
  match Secrets [p.Alpha, p.T] with
  | .ok ints => .ok (ints.map fun z => match z with | none => [] | some v => intBytes v)
  | .err e => .err e
  | .panic => .panic

/-- Errors of `UnmarshalDLNProof`. -/
inductive UErr where
  | secrets (e : Err)
  | parts
  | copied
  deriving DecidableEq

/-- proof.go:127-147 `UnmarshalDLNProof`: `copy` takes at most 128 elements and ignores the rest. -/
def UnmarshalDLNProof (bzs : List Bytes) : Res UErr Proof :=
  match ParseSecrets (bzs.map fun b => some (beNat b : Int)) with
  | .err e => .err (.secrets e)
  | .panic => .panic
  | .ok [a, t] =>
    if a.length < Iterations then .err .copied
    else if t.length < Iterations then .err .copied
    else .ok ⟨a.take Iterations, t.take Iterations⟩
  | .ok _ => .err .parts

end Tss.Dln
