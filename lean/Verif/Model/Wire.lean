import Verif.Model.Text
/-
Model of the protobuf wire format as used by /repo/tss/wire.go, /repo/tss/message.go and the generated
message types (field numbers from /repo/protob/*.proto).  Unknown fields are skipped, a known field with
another wire type counts as unknown, the last occurrence of a singular field wins.
-/
namespace Tss.Wire
open Tss Text

/-- protowire.AppendVarint with fuel (10 groups cover 64 bits). -/
def encVarintAux : Nat → Nat → Bytes
  | 0, _ => []
  | f + 1, n => if n < 128 then [UInt8.ofNat n] else UInt8.ofNat (n % 128 + 128) :: encVarintAux f (n / 128)

/-- protowire.AppendVarint of a 64-bit value. -/
def encVarint (n : Nat) : Bytes := encVarintAux 10 n

/-- protowire.ConsumeVarint: at most 10 bytes, the tenth at most 1. -/
def consumeVarintAux : Nat → Nat → Bytes → Option (Nat × Bytes)
  | _, _, [] => none
  | i, acc, b :: t =>
    if i = 9 then (if b.toNat < 2 then some (acc + b.toNat * 2 ^ 63, t) else none)
    else if b.toNat < 128 then some (acc + b.toNat * 2 ^ (7 * i), t)
    else consumeVarintAux (i + 1) (acc + (b.toNat - 128) * 2 ^ (7 * i)) t

/-- protowire.ConsumeVarint. -/
def consumeVarint (b : Bytes) : Option (Nat × Bytes) := consumeVarintAux 0 0 b

/-- A decoded field value. -/
inductive WVal where
  | varint (n : Nat)
  | fixed
  | bytes (b : Bytes)
  | group
  deriving DecidableEq, Repr

/-- Tag: field number in 1..2^29-1 and wire type. -/
def consumeTag (b : Bytes) : Option (Nat × Nat × Bytes) :=
  match consumeVarint b with
  | none => none
  | some (v, r) => if 1 ≤ v / 8 ∧ v / 8 < 2 ^ 29 then some (v / 8, v % 8, r) else none

mutual
/-- protowire.ConsumeFieldValue (the nesting limit of 10000 groups is not modelled). -/
def consumeVal : Nat → Nat → Nat → Bytes → Option (WVal × Bytes)
  | 0, _, _, _ => none
  | f + 1, num, typ, b =>
    if typ = 0 then (consumeVarint b).map fun r => (.varint r.1, r.2)
    else if typ = 1 then (if b.length < 8 then none else some (.fixed, b.drop 8))
    else if typ = 5 then (if b.length < 4 then none else some (.fixed, b.drop 4))
    else if typ = 2 then
      match consumeVarint b with
      | none => none
      | some (n, r) => if r.length < n then none else some (.bytes (r.take n), r.drop n)
    else if typ = 3 then (consumeGroup f num b).map fun r => (.group, r)
    else none
/-- protowire.ConsumeGroup: fields up to the matching end-group tag. -/
def consumeGroup : Nat → Nat → Bytes → Option Bytes
  | 0, _, _ => none
  | f + 1, num, b =>
    match consumeTag b with
    | none => none
    | some (n, t, r) =>
      if t = 4 then (if n = num then some r else none)
      else match consumeVal f n t r with
        | none => none
        | some (_, r') => consumeGroup f num r'
end

/-- All fields of a message, in order; none is a decoding error. -/
def parseFieldsAux : Nat → Bytes → Option (List (Nat × WVal))
  | _, [] => some []
  | 0, _ :: _ => none
  | f + 1, b =>
    match consumeTag b with
    | none => none
    | some (n, t, r) =>
      match consumeVal (f + 1) n t r with
      | none => none
      | some (v, r') => (parseFieldsAux f r').map fun l => (n, v) :: l

/-- proto.Unmarshal, first stage: the list of fields.  Each field consumes at least one byte, so the
input length is enough fuel. -/
def parseFields (b : Bytes) : Option (List (Nat × WVal)) := parseFieldsAux b.length b

/-- Last length-delimited value of field `k`, default empty (a proto3 `bytes` field). -/
def getBytes (k : Nat) : List (Nat × WVal) → Bytes
  | [] => []
  | (n, v) :: t =>
    match getBytesOpt k t with
    | some b => b
    | none => if n = k then (match v with | .bytes b => b | _ => []) else []
where
  /-- last occurrence, if any -/
  getBytesOpt (k : Nat) : List (Nat × WVal) → Option Bytes
    | [] => none
    | (n, v) :: t =>
      match getBytesOpt k t with
      | some b => some b
      | none => if n = k then (match v with | .bytes b => some b | _ => none) else none

/-- All length-delimited values of field `k` (a `repeated bytes` field). -/
def getRepeated (k : Nat) (l : List (Nat × WVal)) : List Bytes :=
  l.filterMap fun p => if p.1 = k then (match p.2 with | .bytes b => some b | _ => none) else none

/-- UTF-8 continuation byte in a range. -/
def cont (lo hi : Nat) (b : UInt8) : Bool := decide (lo ≤ b.toNat) && decide (b.toNat ≤ hi)

/-- Go utf8.Valid. -/
def validUTF8 : Bytes → Bool
  | [] => true
  | a :: t =>
    let n := a.toNat
    if n < 0x80 then validUTF8 t
    else if 0xC2 ≤ n ∧ n ≤ 0xDF then
      match t with
      | b :: t2 => cont 0x80 0xBF b && validUTF8 t2
      | _ => false
    else if 0xE0 ≤ n ∧ n ≤ 0xEF then
      match t with
      | b :: c :: t3 =>
        cont (if n = 0xE0 then 0xA0 else 0x80) (if n = 0xED then 0x9F else 0xBF) b && cont 0x80 0xBF c && validUTF8 t3
      | _ => false
    else if 0xF0 ≤ n ∧ n ≤ 0xF4 then
      match t with
      | b :: c :: d :: t4 =>
        cont (if n = 0xF0 then 0x90 else 0x80) (if n = 0xF4 then 0x8F else 0xBF) b &&
          cont 0x80 0xBF c && cont 0x80 0xBF d && validUTF8 t4
      | _ => false
    else false

/-- Every occurrence of a proto3 `string` field must be valid UTF-8. -/
def stringsOk (k : Nat) (l : List (Nat × WVal)) : Bool := (getRepeated k l).all validUTF8

/-- One length-delimited field; empty singular fields are omitted by proto3. -/
def encField (k : Nat) (b : Bytes) : Bytes :=
  if b = [] then [] else encVarint (k * 8 + 2) ++ encVarint b.length ++ b

/-- One element of a repeated field (present even when empty). -/
def encFieldRep (k : Nat) (b : Bytes) : Bytes := encVarint (k * 8 + 2) ++ encVarint b.length ++ b

/-! ### Any -/

/-- Part of a type URL after the last '/' (protoregistry.FindMessageByURL). -/
def afterSlash (b : Bytes) : Bytes :=
  match split 47 b with
  | [] => []
  | h :: t => (h :: t).getLast (by simp)

/-- The message contents the code base knows (those that implement tss.MessageContent):
/repo/protob/eddsa-cmp-keygen.proto and /repo/protob/eddsa-cmp-onsign.proto. -/
inductive Content where
  | kg1 (commitment : Bytes)
  | kg2 (ssid srid xx xy ax ay u paillierN pedS pedT : Bytes)
  | kg3 (schProof : Bytes) (modProof : List Bytes) (prmProof : Bytes)
  | sg1a (bigK : Bytes)
  | sg1b (encProof : Bytes)
  | sg2 (rx ry logProof : Bytes)
  | sg3 (sigma : Bytes)
  deriving DecidableEq, Repr

/-- Which of the registered message types. -/
inductive Kind where
  | kg1 | kg2 | kg3 | sg1a | sg1b | sg2 | sg3
  deriving DecidableEq, Repr

/-- Type of a content. -/
def Content.kind : Content → Kind
  | .kg1 .. => .kg1 | .kg2 .. => .kg2 | .kg3 .. => .kg3 | .sg1a .. => .sg1a
  | .sg1b .. => .sg1b | .sg2 .. => .sg2 | .sg3 .. => .sg3

/-- Full protobuf name. -/
def Kind.fullName : Kind → Bytes
  | .kg1 => ascii "legend.tsslib.eddsacmp.keygen.KGRound1Message"
  | .kg2 => ascii "legend.tsslib.eddsacmp.keygen.KGRound2Message"
  | .kg3 => ascii "legend.tsslib.eddsacmp.keygen.KGRound3Message"
  | .sg1a => ascii "legend.tsslib.eddsacmp.onsign.SignRound1Message1"
  | .sg1b => ascii "legend.tsslib.eddsacmp.onsign.SignRound1Message2"
  | .sg2 => ascii "legend.tsslib.eddsacmp.onsign.SignRound2Message"
  | .sg3 => ascii "legend.tsslib.eddsacmp.onsign.SignRound3Message"

/-- All registered MessageContent types. -/
def Kind.all : List Kind := [.kg1, .kg2, .kg3, .sg1a, .sg1b, .sg2, .sg3]

/-- protoregistry lookup by full name, restricted to MessageContent types (any other registered type
ends in the "unknown content" error of tss/wire.go:45, any unregistered one in a lookup error). -/
def kindOfName (n : Bytes) : Option Kind := Kind.all.find? fun k => decide (k.fullName = n)

/-- proto.Marshal of a content (deterministic field order; `party_index` is never set). -/
def Content.marshal : Content → Bytes
  | .kg1 c => encField 1 c
  | .kg2 ssid srid xx xy ax ay u pn ps pt =>
    encField 1 ssid ++ encField 3 srid ++ encField 4 xx ++ encField 5 xy ++ encField 6 ax ++ encField 7 ay ++
      encField 8 u ++ encField 9 pn ++ encField 10 ps ++ encField 11 pt
  | .kg3 s ms p => encField 1 s ++ ms.flatMap (encFieldRep 2) ++ encField 3 p
  | .sg1a k => encField 1 k
  | .sg1b e => encField 1 e
  | .sg2 rx ry lp => encField 1 rx ++ encField 2 ry ++ encField 3 lp
  | .sg3 s => encField 1 s

/-- Typed view of the parsed fields. -/
def ofFields (k : Kind) (l : List (Nat × WVal)) : Content :=
  match k with
  | .kg1 => .kg1 (getBytes 1 l)
  | .kg2 => .kg2 (getBytes 1 l) (getBytes 3 l) (getBytes 4 l) (getBytes 5 l) (getBytes 6 l) (getBytes 7 l)
      (getBytes 8 l) (getBytes 9 l) (getBytes 10 l) (getBytes 11 l)
  | .kg3 => .kg3 (getBytes 1 l) (getRepeated 2 l) (getBytes 3 l)
  | .sg1a => .sg1a (getBytes 1 l)
  | .sg1b => .sg1b (getBytes 1 l)
  | .sg2 => .sg2 (getBytes 1 l) (getBytes 2 l) (getBytes 3 l)
  | .sg3 => .sg3 (getBytes 1 l)

/-- "type.googleapis.com/" + full name (anypb.New). -/
def typeUrl (k : Kind) : Bytes := ascii "type.googleapis.com/" ++ k.fullName

/-- tss/message.go:82-101 `NewMessageWrapper` + 139-145 `WireBytes`: the marshalled Any. -/
def wireBytes (c : Content) : Bytes := encField 1 (typeUrl c.kind) ++ encField 2 c.marshal

/-- tss/wire.go:23-46 `ParseWireMsg` (the content; none is an error): unmarshal the Any, resolve the
type URL, unmarshal the value. -/
def parseWireMsg (b : Bytes) : Option Content :=
  match parseFields b with
  | none => none
  | some l =>
    if !stringsOk 1 l then none
    else
      let url := getBytes 1 l
      if url = [] then none
      else match kindOfName (afterSlash url) with
        | none => none
        | some k =>
          match parseFields (getBytes 2 l) with
          | none => none
          | some l2 => some (ofFields k l2)

/-- What a parsed message reports through GetFrom / IsBroadcast / Content (`P` is the type of party ids). -/
structure Parsed (P : Type) where
  content : Content
  from_ : Option P
  isBroadcast : Bool
  deriving DecidableEq

/-- tss/wire.go:47-71 `ParseWireMessage`; a nil sender is dereferenced before anything else. -/
def parseWireMessage {P : Type} (b : Bytes) (frm : Option P) (isBroadcast : Bool) : Res Unit (Parsed P) :=
  match frm with
  | none => .panic
  | some f =>
    match parseWireMsg b with
    | none => .err ()
    | some c => .ok ⟨c, some f, isBroadcast⟩

/-- tss/wire.go:23-46 `ParseWireMsg` with the routing it reports: no sender, not broadcast. -/
def parseWireMsgFull {P : Type} (b : Bytes) : Res Unit (Parsed P) :=
  match parseWireMsg b with
  | none => .err ()
  | some c => .ok ⟨c, none, false⟩

end Tss.Wire
