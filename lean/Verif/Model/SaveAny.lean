import Verif.Model.SaveJson
import Verif.Model.SecpS256
/-
The save data as Go holds it: every point carries its curve (crypto/ecpoint.go:25-28), and the registry of curves
(tss/curve.go:24-37) has two entries. Model/SaveJson has the points of one curve only.
-/
namespace Tss.SaveJson
open Tss Text RangeProofs

/-- The curves that are registered when the program starts (tss/curve.go:35-36). -/
inductive CurveId
  | ed25519 | secp256k1
  deriving DecidableEq

/-- tss/curve.go:19-22 the registered names. -/
def CurveId.name : CurveId → Bytes
  | .ed25519 => ascii "ed25519"
  | .secp256k1 => ascii "secp256k1"

/-- tss/curve.go:35-36. -/
def CurveId.curve : CurveId → Curve
  | .ed25519 => Ed.curve
  | .secp256k1 => Secp.s256

/-- tss/curve.go:44-50 `GetCurveByName`. -/
def curveByName (n : Bytes) : Option CurveId :=
  if n = ascii "ed25519" then some .ed25519 else if n = ascii "secp256k1" then some .secp256k1 else none

/-- crypto/ecpoint.go:25-28 `ECPoint`. -/
structure CPoint where
  c : CurveId
  p : ECPoint
  deriving DecidableEq

/-- eddsacmp/keygen/save_data.go:15-43 with points that carry their curve. -/
structure SaveAny where
  privXi : Option Int
  shareID : Option Int
  chainCodes : List (Option Int)
  ks : List (Option Int)
  pubXj : List (Option CPoint)
  eddsaPub : Option CPoint
  paillierPKs : List (Option Int)
  ringPedersenPKs : List (Option (Int × Int × Int))

/-- crypto/ecpoint.go:227-240 `MarshalJSON`: the two curves have different Go types, so the name found is the one of the curve. -/
def cpointJson : Option CPoint → Json
  | none => .null
  | some q => .obj [(ascii "Curve", .str q.c.name), (ascii "Coords", .arr [bigJson (some q.p.x), bigJson (some q.p.y)])]

/-- crypto/ecpoint.go:242-268 `UnmarshalJSON`. No name means `tss.EC()`, which eddsacmp/onsign/local_party.go:94 has set to
`tss.Edwards()`. -/
def readCPoint : Json → Option (Option CPoint)
  | .null => some none
  | .obj l =>
    match l.foldlM readAux ⟨[], none, none⟩ with
    | none => none
    | some a =>
      match (if a.curve = [] then some CurveId.ed25519 else curveByName a.curve) with
      | none => none
      | some c =>
        match a.x, a.y with
        | some x, some y => if c.curve.isOnCurve x y then some (some ⟨c, ⟨x, y⟩⟩) else none
        | _, _ => none
  | _ => none

/-- As `saveJson`. -/
def saveAnyJson (d : SaveAny) : Json :=
  .obj [(ascii "PrivXi", bigJson d.privXi), (ascii "ShareID", bigJson d.shareID), (ascii "ChainCodes", chainJson d.chainCodes),
    (ascii "Ks", .arr (d.ks.map bigJson)), (ascii "PubXj", .arr (d.pubXj.map cpointJson)), (ascii "EdDSAPub", cpointJson d.eddsaPub),
    (ascii "PaillierPKs", .arr (d.paillierPKs.map paillierJson)), (ascii "RingPedersenPKs", .arr (d.ringPedersenPKs.map pedJson))]

/-- json.Marshal of the record. -/
def marshalAny (d : SaveAny) : Bytes := (saveAnyJson d).render

/-- As `readField`. -/
def readFieldAny (d : SaveAny) (m : Bytes × Json) : Option SaveAny :=
  let k := Json.foldName m.1
  if k = ascii "privxi" then (readBig m.2).map fun x => { d with privXi := x }
  else if k = ascii "shareid" then (readBig m.2).map fun x => { d with shareID := x }
  else if k = ascii "chaincodes" then (readList readBig m.2).map fun l => { d with chainCodes := l }
  else if k = ascii "ks" then (readList readBig m.2).map fun l => { d with ks := l }
  else if k = ascii "pubxj" then (readList readCPoint m.2).map fun l => { d with pubXj := l }
  else if k = ascii "eddsapub" then (readCPoint m.2).map fun p => { d with eddsaPub := p }
  else if k = ascii "paillierpks" then (readList readPaillier m.2).map fun l => { d with paillierPKs := l }
  else if k = ascii "ringpedersenpks" then (readList readPed m.2).map fun l => { d with ringPedersenPKs := l }
  else some d

/-- eddsacmp/onsign/local_party.go:110-115 `json.Unmarshal(keyDataBytes, keys)`; none is an error. -/
def unmarshalAny (b : Bytes) : Option SaveAny :=
  match Json.parse b with
  | some .null => some ⟨none, none, [], [], [], none, [], []⟩
  | some (.obj l) => l.foldlM readFieldAny ⟨none, none, [], [], [], none, [], []⟩
  | _ => none

end Tss.SaveJson
