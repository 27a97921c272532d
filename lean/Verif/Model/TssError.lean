import Verif.Model.PartyID
import Verif.Model.Text
/-
Model of /repo/tss/error.go, of PartyID.String (/repo/tss/party_id.go:56-58) and of the WrapError functions.
-/
namespace Tss.TssError
open Tss Tss.Text

/-- The bytes of a Go string. -/
def utf8 (s : String) : Bytes := s.toUTF8.data.toList

/-- fmt's `%d` of an int. -/
def fmtInt (i : Int) : Bytes := if i < 0 then 45 :: itoa i.natAbs else itoa i.natAbs

/-- tss/party_id.go:56-58 `PartyID.String`: `{%d,%s}` of index and moniker. -/
def pidString (p : PartyID) : Bytes := 123 :: (fmtInt p.index ++ 44 :: (utf8 p.moniker ++ [125]))

/-- fmt's `%v` and `%s` of a *PartyID: String has a value receiver, and fmt writes `<nil>` for a nil pointer. -/
def fmtPid : Option PartyID → Bytes
  | none => ascii "<nil>"
  | some p => pidString p

/-- The elements of a slice as fmt writes them, separated by spaces. -/
def fmtPids : List (Option PartyID) → Bytes
  | [] => []
  | [p] => fmtPid p
  | p :: q :: t => fmtPid p ++ 32 :: fmtPids (q :: t)

/-- tss/error.go:14-20 `Error`. The cause is its text; none is nil. -/
structure Error where
  cause : Option Bytes
  task : Bytes
  round : Int
  victim : Option PartyID
  culprits : List (Option PartyID)
  deriving DecidableEq

/-- tss/error.go:38-48 `Error.Error`; the receiver may be nil. -/
def Error.text : Option Error → Bytes
  | none => ascii "Error is nil"
  | some e =>
    match e.cause with
    | none => ascii "Error is nil"
    | some c =>
      if e.culprits ≠ [] then
        ascii "task " ++ (e.task ++ (ascii ", party " ++ (fmtPid e.victim ++ (ascii ", round " ++ (fmtInt e.round ++
          (ascii ", culprits " ++ (91 :: (fmtPids e.culprits ++ (93 :: (ascii ": " ++ c))))))))))
      else
        ascii "task " ++ (e.task ++ (ascii ", party " ++ (fmtPid e.victim ++ (ascii ", round " ++ (fmtInt e.round ++
          (ascii ": " ++ c))))))

/-- tss/error.go:22-24 `NewError`. -/
def newError (err : Option Bytes) (task : Bytes) (round : Int) (victim : Option PartyID) (culprits : List (Option PartyID)) : Error :=
  { cause := err, task := task, round := round, victim := victim, culprits := culprits }

/-- eddsacmp/keygen/rounds.go:56-58 and eddsacmp/onsign/rounds.go:61-63 `base.WrapError`: the round's task name, number and party. -/
def roundWrap (taskName : Bytes) (number : Int) (pid : Option PartyID) (err : Option Bytes) (culprits : List (Option PartyID)) : Error :=
  newError err taskName number pid culprits

/-- tss/party.go:60-65 `BaseParty.WrapError`; the argument is the current round (task name, number, party), none if there is none. -/
def partyWrap (rnd : Option (Bytes × Int × Option PartyID)) (err : Option Bytes) (culprits : List (Option PartyID)) : Error :=
  match rnd with
  | none => newError err [] (-1) none culprits
  | some (task, number, pid) => roundWrap task number pid err culprits

end Tss.TssError
