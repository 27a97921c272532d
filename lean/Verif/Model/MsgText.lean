import Verif.Model.Messages
import Verif.Model.TssError
/-
Model of `MessageImpl.String` (/repo/tss/message.go:159-169).
-/
namespace Tss.Messages
open Tss Text Wire TssError

/-- fmt's `%v` of a bool. -/
def fmtBool (b : Bool) : Bytes := if b then ascii "true" else ascii "false"

/-- tss/message.go:160-163: "all", or the recipients as fmt writes a slice of them. -/
def toText (l : List PartyID) : Bytes :=
  if l = [] then ascii "all" else 91 :: (fmtPids (l.map some) ++ [93])

/-- tss/message.go:159-169 `MessageImpl.String`. The sender is dereferenced: a nil one crashes (none). The flag `IsToOldCommittee` is
never set in this code base, so the last part is empty (the space before it stays). -/
def Message.text (m : Message) : Option Bytes :=
  match m.routing.from_ with
  | none => none
  | some f => some (ascii "Type: " ++ (m.content.kind.fullName ++ (ascii ", From: " ++ (pidString f ++ (ascii ", To: " ++
      (toText m.routing.to_ ++ (ascii ", IsBroadcast: " ++ (fmtBool m.wireBroadcast ++ ascii " "))))))))

end Tss.Messages
