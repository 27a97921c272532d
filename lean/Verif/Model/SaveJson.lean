import Verif.Model.Json
import Verif.Model.Keygen
import Verif.Model.Ed25519
import Verif.Model.RangeProofs
import Verif.Model.Onsign
/-
JSON of the key-generation save data (eddsacmp/keygen/save_data.go:15-43, crypto/ecpoint.go:227-268) as `json.Marshal` writes it
(round_4.go:83) and `json.Unmarshal` reads it (eddsacmp/onsign/local_party.go:112-117), and of the signature record
(common/signature.pb.go:30-43, round_final.go:85).
-/
namespace Tss.SaveJson
open Tss Text RangeProofs

/-- `*big.Int`: null, or the decimal text. -/
def bigJson : Option Int → Json
  | none => .null
  | some z => .num (bigString z)

/-- crypto/ecpoint.go:227-240 `MarshalJSON` of a point whose curve is `tss.Edwards()`, registered as "ed25519"; a nil pointer is
null. -/
def pointJson : Option ECPoint → Json
  | none => .null
  | some p => .obj [(ascii "Curve", .str (ascii "ed25519")), (ascii "Coords", .arr [bigJson (some p.x), bigJson (some p.y)])]

/-- `*paillier.PublicKey` (crypto/paillier/paillier.go:41-43). -/
def paillierJson : Option Int → Json
  | none => .null
  | some n => .obj [(ascii "N", bigJson (some n))]

/-- `*PedPubKey` (crypto/alice/paillier/ringpedersen.go:14-18). -/
def pedJson : Option (Int × Int × Int) → Json
  | none => .null
  | some (n, s, t) => .obj [(ascii "N", bigJson (some n)), (ascii "S", bigJson (some s)), (ascii "T", bigJson (some t))]

/-- A slice; the only one that can be nil is the list of chain codes, before it is set. -/
def chainJson (l : List (Option Int)) : Json := if l.isEmpty then .null else .arr (l.map bigJson)

/-- eddsacmp/keygen/save_data.go:15-43: the embedded structs are flattened, in this order. -/
def saveJson (d : Keygen.SaveData) : Json :=
  .obj [(ascii "PrivXi", bigJson d.privXi), (ascii "ShareID", bigJson d.shareID), (ascii "ChainCodes", chainJson d.chainCodes),
    (ascii "Ks", .arr (d.ks.map bigJson)), (ascii "PubXj", .arr (d.pubXj.map pointJson)), (ascii "EdDSAPub", pointJson d.eddsaPub),
    (ascii "PaillierPKs", .arr (d.paillierPKs.map paillierJson)), (ascii "RingPedersenPKs", .arr (d.ringPedersenPKs.map pedJson))]

/-- eddsacmp/keygen/round_4.go:83 `json.Marshal(party.save)`; all points are on a registered curve, so it succeeds. -/
def marshal (d : Keygen.SaveData) : Bytes := (saveJson d).render

/-- A `*big.Int` field or element: null is nil, otherwise big.Int's `UnmarshalJSON`, which takes integers only. -/
def readBig : Json → Option (Option Int)
  | .null => some none
  | .num t =>
    match parseBig 10 t with
    | some z => some (some z)
    | none => none
  | _ => none

/-- A slice: null is nil. -/
def readList {α : Type} (f : Json → Option α) : Json → Option (List α)
  | .null => some []
  | .arr l => l.mapM f
  | _ => none

/-- The anonymous struct of crypto/ecpoint.go:243-246. -/
structure Aux where
  curve : Bytes
  x : Option Int
  y : Option Int

/-- A field `[2]*big.Int`: missing elements are nil, further elements are skipped, null changes nothing. -/
def readCoords (a : Aux) : Json → Option Aux
  | .null => some a
  | .arr [] => some { a with x := none, y := none }
  | .arr [u] => (readBig u).map fun x => { a with x := x, y := none }
  | .arr (u :: v :: _) =>
    match readBig u, readBig v with
    | some x, some y => some { a with x := x, y := y }
    | _, _ => none
  | _ => none

/-- One member of a point; unknown names are skipped. -/
def readAux (a : Aux) (m : Bytes × Json) : Option Aux :=
  if Json.foldName m.1 = ascii "curve" then
    match m.2 with
    | .str s => some { a with curve := s }
    | .null => some a
    | _ => none
  else if Json.foldName m.1 = ascii "coords" then readCoords a m.2
  else some a

/-- crypto/ecpoint.go:242-268 `UnmarshalJSON`.  No curve name means `tss.EC()`, which local_party.go:94 has just set to
`tss.Edwards()`.  Simplification: the curves other than "ed25519" in the registry ("secp256k1") are refused here; in Go such a
point is read and carries its own curve, which `ECPoint` cannot express: see Model/SaveAny. -/
def readPoint : Json → Option (Option ECPoint)
  | .null => some none
  | .obj l =>
    match l.foldlM readAux ⟨[], none, none⟩ with
    | none => none
    | some a =>
      if a.curve = [] ∨ a.curve = ascii "ed25519" then
        match a.x, a.y with
        | some x, some y => if Ed.curve.isOnCurve x y then some (some ⟨x, y⟩) else none
        | _, _ => none
      else none
  | _ => none

/-- One member of a `paillier.PublicKey`. -/
def readN (n : Option Int) (m : Bytes × Json) : Option (Option Int) :=
  if Json.foldName m.1 = ascii "n" then readBig m.2 else some n

/-- `*paillier.PublicKey`.  A key without modulus is read as modulus 0: the list is replaced before it is used
(local_party.go:162). -/
def readPaillier : Json → Option (Option Int)
  | .null => some none
  | .obj l => (l.foldlM readN none).map fun n => some (n.getD 0)
  | _ => none

/-- One member of a `PedPubKey`. -/
def readNst (p : Option Int × Option Int × Option Int) (m : Bytes × Json) : Option (Option Int × Option Int × Option Int) :=
  if Json.foldName m.1 = ascii "n" then (readBig m.2).map fun n => (n, p.2.1, p.2.2)
  else if Json.foldName m.1 = ascii "s" then (readBig m.2).map fun s => (p.1, s, p.2.2)
  else if Json.foldName m.1 = ascii "t" then (readBig m.2).map fun t => (p.1, p.2.1, t)
  else some p

/-- `*PedPubKey`; missing numbers as in `readPaillier`. -/
def readPed : Json → Option (Option (Int × Int × Int))
  | .null => some none
  | .obj l => (l.foldlM readNst (none, none, none)).map fun p => some (p.1.getD 0, p.2.1.getD 0, p.2.2.getD 0)
  | _ => none

/-- One member of the save data; a name that occurs again overwrites, unknown names are skipped. -/
def readField (d : Keygen.SaveData) (m : Bytes × Json) : Option Keygen.SaveData :=
  let k := Json.foldName m.1
  if k = ascii "privxi" then (readBig m.2).map fun x => { d with privXi := x }
  else if k = ascii "shareid" then (readBig m.2).map fun x => { d with shareID := x }
  else if k = ascii "chaincodes" then (readList readBig m.2).map fun l => { d with chainCodes := l }
  else if k = ascii "ks" then (readList readBig m.2).map fun l => { d with ks := l }
  else if k = ascii "pubxj" then (readList readPoint m.2).map fun l => { d with pubXj := l }
  else if k = ascii "eddsapub" then (readPoint m.2).map fun p => { d with eddsaPub := p }
  else if k = ascii "paillierpks" then (readList readPaillier m.2).map fun l => { d with paillierPKs := l }
  else if k = ascii "ringpedersenpks" then (readList readPed m.2).map fun l => { d with ringPedersenPKs := l }
  else some d

/-- eddsacmp/onsign/local_party.go:112 the empty record. -/
def emptySave : Keygen.SaveData := ⟨none, none, [], [], [], none, [], []⟩

/-- eddsacmp/onsign/local_party.go:112-117 `json.Unmarshal(keyDataBytes, keys)`; none is an error.  Simplification: a repeated
member is read into a fresh value (in Go the elements of a repeated list of Paillier keys are merged). -/
def unmarshal (b : Bytes) : Option Keygen.SaveData :=
  match Json.parse b with
  | some .null => some emptySave
  | some (.obj l) => l.foldlM readField emptySave
  | _ => none

/-- One `[]byte` member with `omitempty`. -/
def bytesMember (name : String) (b : Bytes) : List (Bytes × Json) :=
  if b.isEmpty then [] else [(ascii name, .str (b64Encode b))]

/-- common/signature.pb.go:30-43; the recovery byte is never set. -/
def sigJson (d : Onsign.SigData) : Json :=
  .obj (bytesMember "signature" d.signature ++ bytesMember "r" d.r ++ bytesMember "s" d.s ++ bytesMember "m" d.m)

/-- eddsacmp/onsign/round_final.go:85 `json.Marshal(party.data)`. -/
def marshalSig (d : Onsign.SigData) : Bytes := (sigJson d).render

end Tss.SaveJson
