import Verif.Model.Messages
import Verif.Model.Onsign
import Verif.Model.ModProof
import Verif.Model.RingPed
import Verif.Model.AlicePaillier
/-
Model of the functions that read the fields of a received message: /repo/eddsacmp/keygen/message/messages.go and
/repo/eddsacmp/onsign/message/messages.go (`Unmarshal…`), and of the two proof messages of /repo/crypto/alice that are put into messages as
bytes.  `SetBytes` of a nil slice is 0, like that of an empty one.
-/
namespace Tss.Readers
open Tss Wire

/-- What `proto.Marshal` writes for `RingPederssenParameterMessage` (crypto/alice/zkproof/paillier/message.pb.go:44-49). -/
def prmMarshal (m : RingPed.Msg) : Bytes :=
  m.Z.flatMap (encFieldRep 1) ++ m.A.flatMap (encFieldRep 2) ++ encField 3 m.N ++ encField 4 m.S ++ encField 5 m.T ++ encField 6 m.salt

/-- `proto.Unmarshal` into an empty `RingPederssenParameterMessage`; none is an error. -/
def prmUnmarshal (b : Bytes) : Option RingPed.Msg :=
  match parseFields b with
  | none => none
  | some l => some {
      Z := getRepeated 1 l
      A := getRepeated 2 l
      N := getBytes 3 l
      S := getBytes 4 l
      T := getBytes 5 l
      salt := getBytes 6 l }

/-- What `proto.Marshal` writes for `IntegerFactorizationProofMessage` (crypto/alice/zkproof/message.pb.go:42-45). -/
def factorMarshal (m : Factor.Msg) : Bytes := encField 1 m.salt ++ encField 2 m.publicKey ++ encField 3 m.X ++ encField 4 m.Y

/-- crypto/alice/paillier/paillier.go:384-388 `ToPubKeyBytes`: `proto.Marshal` of `PubKeyMessage` (crypto/alice/paillier/message.pb.go:43-44):
the proof is a message of its own, written whenever it is there. -/
def pubKeyBytes (m : AlicePaillier.PubKeyMessage) : Bytes := encFieldRep 1 (factorMarshal m.proof) ++ encField 2 m.G

/-- `proto.Unmarshal` into an empty `PubKeyMessage`: several occurrences of the proof are merged, field by field, the last one counting.
None is an error; a missing proof (a nil pointer in Go) is an error here too, since `ToPubkey` would dereference it. -/
def pubKeyOfBytes (b : Bytes) : Option AlicePaillier.PubKeyMessage :=
  match parseFields b with
  | none => none
  | some l =>
    match (getRepeated 1 l).mapM parseFields with
    | none => none
    | some [] => none
    | some ls => some {
        proof := ⟨getBytes 1 ls.flatten, getBytes 2 ls.flatten, getBytes 3 ls.flatten, getBytes 4 ls.flatten⟩
        G := getBytes 2 l }

/-- eddsacmp/keygen/message/messages.go:74-76 `UnmarshalPaillierPK`: the modulus. -/
def paillierPK : Content → Option Int
  | .kg2 _ _ _ _ _ _ _ pn _ _ => some (beNat pn)
  | _ => none

/-- eddsacmp/keygen/message/messages.go:78-83 `UnmarshalPedersenPK`: s and t (the modulus of the result stays nil). -/
def pedersenPK : Content → Option (Int × Int)
  | .kg2 _ _ _ _ _ _ _ _ s t => some (beNat s, beNat t)
  | _ => none

/-- eddsacmp/keygen/message/messages.go:85-95 `UnmarshalPubXj`; an inner none is the error return. -/
def pubXj (c : Curve) : Content → Option (Option ECPoint)
  | .kg2 _ _ xx xy _ _ _ _ _ _ => some (ECPoint.new c (beNat xx) (beNat xy))
  | _ => none

/-- eddsacmp/keygen/message/messages.go:97-105 `CmpKeyGenerationPayload`. -/
structure Payload where
  commitedA : ECPoint
  ssid : Bytes
  srid : Bytes
  u : Bytes
  deriving DecidableEq

/-- eddsacmp/keygen/message/messages.go:107-123 `UnmarshalPayload`; an inner none is the error return. -/
def payload (c : Curve) : Content → Option (Option Payload)
  | .kg2 ssid srid _ _ ax ay u _ _ _ =>
    some (match ECPoint.new c (beNat ax) (beNat ay) with
      | none => none
      | some A => some ⟨A, ssid, srid, u⟩)
  | _ => none

/-- eddsacmp/keygen/message/messages.go:146-148 `UnmarshalSchProof`. -/
def schProof : Content → Option Int
  | .kg3 s _ _ => some (beNat s)
  | _ => none

/-- eddsacmp/keygen/message/messages.go:150-152 `UnmarshalModProof`; an inner none is the error return. -/
def modProof : Content → Option (Option ModProof.Proof)
  | .kg3 _ m _ => some (ModProof.NewProofFromBytes m)
  | _ => none

/-- eddsacmp/keygen/message/messages.go:154-160 `UnmarshalPrmProof`; an inner none is the error return. -/
def prmProof : Content → Option (Option RingPed.Msg)
  | .kg3 _ _ p => some (prmUnmarshal p)
  | _ => none

/-- eddsacmp/onsign/message/messages.go:48-50 `UnmarshalK`. -/
def bigK : Content → Option Int
  | .sg1a k => some (beNat k)
  | _ => none

/-- eddsacmp/onsign/message/messages.go:74-80 `UnmarshalEncProof`; an inner none is the error return. -/
def encProof : Content → Option (Option RangeProofs.EncMsg)
  | .sg1b p => some (Onsign.encUnmarshal p)
  | _ => none

/-- eddsacmp/onsign/message/messages.go:110-120 `UnmarshalR`; an inner none is the error return. -/
def pointR (c : Curve) : Content → Option (Option ECPoint)
  | .sg2 rx ry _ => some (ECPoint.new c (beNat rx) (beNat ry))
  | _ => none

/-- eddsacmp/onsign/message/messages.go:122-128 `UnmarshalLogProof` (the curve is not used); an inner none is the error return. -/
def logProof : Content → Option (Option RangeProofs.LogMsg)
  | .sg2 _ _ p => some (Onsign.logUnmarshal p)
  | _ => none

/-- eddsacmp/onsign/message/messages.go:152-154 `UnmarshalS`. -/
def sigma : Content → Option Int
  | .sg3 s => some (beNat s)
  | _ => none

end Tss.Readers
