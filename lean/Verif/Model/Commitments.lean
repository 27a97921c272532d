import Verif.Model.Common
/-
Model of /repo/crypto/commitments: commitment.go, commitment_builder.go.  Big-integer pointers are `Option Int` (nil is
none).  The debug prints of `DeCommit` are modelled only as the dereferences they perform.
-/
namespace Tss.Commit
open Tss Common

/-- commitment.go:28-31 `HashCommitDecommit`; a nil slice `D` is none. -/
structure HashCommitDecommit where
  C : Option Int
  D : Option (List (Option Int))
  deriving DecidableEq

/-- commitment.go:34-46 `NewHashCommitmentWithRandomness`: a nil secret makes the hash panic. -/
def NewHashCommitmentWithRandomness (H : Bytes → Bytes) (r : Option Int) (secrets : List (Option Int)) :
    Res Unit HashCommitDecommit :=
  match SHA512_256i H (r :: secrets) with
  | .ok h => .ok ⟨h, some (r :: secrets)⟩
  | .err e => .err e
  | .panic => .panic

/-- commitment.go:48-51 `NewHashCommitment`: randomness of 256 bits (`MustGetRandomInt`). -/
def NewHashCommitment (H : Bytes → Bytes) (r : Int) (secrets : List (Option Int)) : Res Unit HashCommitDecommit :=
  NewHashCommitmentWithRandomness H (some r) secrets

/-- commitment.go:53-55 `NewHashDeCommitmentFromBytes` (common.MultiBytesToBigInts). -/
def NewHashDeCommitmentFromBytes (marshalled : List Bytes) : List (Option Int) :=
  marshalled.map fun b => some (beNat b : Int)

/-- commitment.go:57-64 `Verify`: an empty D hashes to nil, whose `Cmp` panics. -/
def HashCommitDecommit.verify (H : Bytes → Bytes) (cmt : HashCommitDecommit) : Res Unit Bool :=
  match cmt.C, cmt.D with
  | some C, some D =>
    match SHA512_256i H D with
    | .ok (some h) => .ok (h == C)
    | _ => .panic
  | _, _ => .ok false

/-- commitment.go:66-75 `DeCommit`: the prints dereference C, D[0] first; answer is the flag and the slice. -/
def HashCommitDecommit.deCommit (H : Bytes → Bytes) (cmt : HashCommitDecommit) : Res Unit (Bool × Option (List (Option Int))) :=
  match cmt.C, cmt.D with
  | some _, some (some _ :: t) =>
    match cmt.verify H with
    | .ok true => .ok (true, some t)
    | .ok false => .ok (false, none)
    | .err e => .err e
    | .panic => .panic
  | _, _ => .panic

/-- commitment_builder.go:16 `PartsCap`. -/
def PartsCap : Nat := 3

/-- commitment_builder.go:17 `MaxPartSize`. -/
def MaxPartSize : Int := 1048576

/-- Errors of the builder. -/
inductive Err where
  | tooMany | tooLarge | tooSmall | notEnough
  deriving DecidableEq

/-- commitment_builder.go:49-57: append each part behind its length. -/
def secretsLoop : List (List (Option Int)) → Res Err (List (Option Int))
  | [] => .ok []
  | p :: t =>
    if MaxPartSize < (p.length : Int) then .err .tooLarge
    else match secretsLoop t with
      | .ok l => .ok (some (p.length : Int) :: p ++ l)
      | .err e => .err e
      | .panic => .panic

/-- commitment_builder.go:40-59 `Secrets` of the parts added. -/
def Secrets (parts : List (List (Option Int))) : Res Err (List (Option Int)) :=
  if PartsCap < parts.length then .err .tooMany else secretsLoop parts

/-- big.Int `Int64`: the low 64 bits, as two's complement. -/
def int64 (x : Int) : Int := if x % 2 ^ 64 < 2 ^ 63 then x % 2 ^ 64 else x % 2 ^ 64 - 2 ^ 64

/-- commitment_builder.go:69-94: the loop on the rest of the list, `n` parts read so far; one step reads a length and, if
anything follows, its part.  A nil length element panics, so does a negative length (slice bounds).  `el` cannot
overflow because lengths are at most MaxPartSize. -/
def parseLoop (n : Nat) : List (Option Int) → Res Err (List (List (Option Int)))
  | [] => .ok []
  | none :: _ => .panic
  | some h :: t =>
    let k := int64 h
    if MaxPartSize < k then .err .tooLarge
    else if t = [] then .ok []
    else if PartsCap ≤ n then .err .tooMany
    else if (t.length : Int) < k then .err .notEnough
    else if k < 0 then .panic
    else match parseLoop (n + 1) (t.drop k.toNat) with
      | .ok l => .ok (t.take k.toNat :: l)
      | .err e => .err e
      | .panic => .panic
  termination_by l => l.length
  decreasing_by simp only [List.length_drop, List.length_cons]; omega

/-- commitment_builder.go:61-97 `ParseSecrets`. -/
def ParseSecrets (secrets : List (Option Int)) : Res Err (List (List (Option Int))) :=
  if secrets.length < 2 then .err .tooSmall else parseLoop 0 secrets

end Tss.Commit
