import Verif.Model.Wire
import Verif.Model.PartyID
import Verif.Model.Party
import Verif.Model.EC
import Verif.Model.Common
/-
Model of the message objects: /repo/tss/message.go, /repo/eddsacmp/keygen/message/messages.go and
/repo/eddsacmp/onsign/message/messages.go (constructors and `ValidateBasic`).
Simplifications: a nil slice and an empty one are not told apart (no function here does: `NonEmptyBytes` refuses both); `String` is in
MsgText.lean; the `From` and `To` of the wrapper are only the routing again and are left out.
-/
namespace Tss.Messages
open Tss Wire

/-- eddsacmp/keygen/message/messages.go:32-34, 63-72, 142-144 and eddsacmp/onsign/message/messages.go:44-46, 70-72, 103-108, 147-150: the
seven `ValidateBasic`, with the fields in the order of the Go conjunctions (the receiver is not nil). -/
def validateBasic : Content → Bool
  | .kg1 commitment => Common.NonEmptyBytes commitment
  | .kg2 ssid srid xx xy ax ay u _ _ _ =>
    Common.NonEmptyBytes xx && Common.NonEmptyBytes xy && Common.NonEmptyBytes ax && Common.NonEmptyBytes ay &&
      Common.NonEmptyBytes srid && Common.NonEmptyBytes ssid && Common.NonEmptyBytes u
  | .kg3 schProof _ _ => Common.NonEmptyBytes schProof
  | .sg1a bigK => Common.NonEmptyBytes bigK
  | .sg1b encProof => Common.NonEmptyBytes encProof
  | .sg2 rx ry logProof => Common.NonEmptyBytes logProof && Common.NonEmptyBytes rx && Common.NonEmptyBytes ry
  | .sg3 sigma => Common.NonEmptyBytes sigma

/-- tss/message.go:53-64 `MessageRouting` (the two flags of resharing are never set in this code base and are left out). -/
structure Routing where
  from_ : Option PartyID
  to_ : List PartyID
  isBroadcast : Bool
  deriving DecidableEq

/-- tss/message.go:67-71 `MessageImpl`: routing, content, and the broadcast flag of the wrapper, which `IsBroadcast` reads
(message.go:125-127). -/
structure Message where
  routing : Routing
  content : Content
  wireBroadcast : Bool
  deriving DecidableEq

/-- tss/message.go:82-101 `NewMessageWrapper` and 105-111 `NewMessage`: the wrapper takes the flag from the routing; a nil sender is
dereferenced (none). -/
def newMessage (meta_ : Routing) (c : Content) : Option Message :=
  match meta_.from_ with
  | none => none
  | some _ => some ⟨meta_, c, meta_.isBroadcast⟩

/-- tss/message.go:139-145 `WireBytes`: only the content goes on the wire. -/
def Message.wire (m : Message) : Bytes := wireBytes m.content

/-- eddsacmp/keygen/message/messages.go:20-30 -/
def newKGRound1 (frm : Option PartyID) (hash : Bytes) : Option Message := newMessage ⟨frm, [], true⟩ (.kg1 hash)

/-- eddsacmp/keygen/message/messages.go:38-61: `X().Bytes()` and so on. -/
def newKGRound2 (frm : Option PartyID) (ssid srid : Bytes) (pubX commitmentA : ECPoint) (u : Bytes) : Option Message :=
  newMessage ⟨frm, [], true⟩
    (.kg2 ssid srid (intBytes pubX.x) (intBytes pubX.y) (intBytes commitmentA.x) (intBytes commitmentA.y) u [] [] [])

/-- eddsacmp/keygen/message/messages.go:127-140 -/
def newKGRound3 (frm : Option PartyID) (schProof : Bytes) : Option Message := newMessage ⟨frm, [], true⟩ (.kg3 schProof [] [])

/-- eddsacmp/onsign/message/messages.go:29-42 -/
def newSignRound1a (frm : Option PartyID) (k : Int) : Option Message := newMessage ⟨frm, [], true⟩ (.sg1a (intBytes k))

/-- eddsacmp/onsign/message/messages.go:54-68 -/
def newSignRound1b (to_ : PartyID) (frm : Option PartyID) (encProof : Bytes) : Option Message :=
  newMessage ⟨frm, [to_], false⟩ (.sg1b encProof)

/-- eddsacmp/onsign/message/messages.go:84-102 -/
def newSignRound2 (to_ : PartyID) (frm : Option PartyID) (R : ECPoint) (logProof : Bytes) : Option Message :=
  newMessage ⟨frm, [to_], false⟩ (.sg2 (intBytes R.x) (intBytes R.y) logProof)

/-- eddsacmp/onsign/message/messages.go:132-145 -/
def newSignRound3 (frm : Option PartyID) (si : Int) : Option Message := newMessage ⟨frm, [], true⟩ (.sg3 (intBytes si))

/-- tss/wire.go:47-71 `ParseWireMessage` as a message object: the content of the bytes, with the sender and the flag the caller states. -/
def receive (b : Bytes) (frm : Option PartyID) (isBroadcast : Bool) : Res Unit Message :=
  match parseWireMessage b frm isBroadcast with
  | .ok m => .ok ⟨⟨m.from_, [], m.isBroadcast⟩, m.content, m.isBroadcast⟩
  | .err u => .err u
  | .panic => .panic

/-- tss/message.go:151-157 `Content`, `ValidateBasic`, and tss/party.go:68-79: what `BaseParty.ValidateMessage` sees of a message. -/
def Message.seen (m : Message) : Party.Msg := ⟨false, false, m.routing.from_, validateBasic m.content⟩

end Tss.Messages
