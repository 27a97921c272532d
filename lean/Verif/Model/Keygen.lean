import Verif.Model.Schnorr
import Verif.Model.PartyID
import Verif.Model.Wire
import Verif.Model.Xor
/-
Model of /repo/eddsacmp/keygen: local_party.go, round_1.go .. round_4.go, save_data.go (types),
message/messages.go.  Log output is not modelled.
-/
namespace Tss.Keygen
open Tss Text Wire

/-- eddsacmp/keygen/save_data.go:15-44 `LocalPartySaveData` (embedded structs flattened).  nil pointers
are `none`.  A Paillier key is its modulus, a ring-Pedersen key the triple (n, s, t). -/
structure SaveData where
  privXi : Option Int
  shareID : Option Int
  chainCodes : List (Option Int)
  ks : List (Option Int)
  pubXj : List (Option ECPoint)
  eddsaPub : Option ECPoint
  paillierPKs : List (Option Int)
  ringPedersenPKs : List (Option (Int × Int × Int))
  deriving DecidableEq

/-- eddsacmp/keygen/message/messages.go:97-105 `CmpKeyGenerationPayload`. -/
structure Payload where
  commitedA : ECPoint
  ssid : Bytes
  srid : Bytes
  u : Bytes
  deriving DecidableEq

/-- eddsacmp/keygen/local_party.go:27-65 `LocalParty` with `localMessageStore` and `LocalTempData`;
`index` is `params.PartyID().Index`, `ids` is `params.Parties().IDs()`.  `ssidNonce` and `srids` are
written or allocated but never read, and not modelled. -/
structure Party where
  index : Nat
  ids : List PartyID
  save : SaveData
  number : Nat
  ok : List Bool
  m1 : List Bytes
  m2 : List Bytes
  m3 : List Bytes
  tau : Option Int
  commitedA : Option ECPoint
  srid : Bytes
  u : Bytes
  ssid : Bytes
  payload : List (Option Payload)
  V : List Bytes
  deriving DecidableEq

/-- Error returns of the package; the texts are in `Err.text`. -/
inductive Err where
  | partyNotFound (key : Bytes)
  | hexRoot
  | chainCount (got want : Nat)
  | chainHex (i : Nat)
  | base64
  | parse
  | msgNull (j : Nat)
  | payload
  | pubxj
  | ssidMismatch (j : Nat)
  | hashMismatch (j : Nat)
  | schnorr (j : Nat)
  | pubkeySum (j : Nat)
  | saveJson
  deriving DecidableEq

/-- The `Err` string of the result (without the detail of the standard-library error it quotes). -/
def Err.text : Err → Bytes
  | .partyNotFound k => ascii "party not found: " ++ k
  | .hexRoot => ascii "hex decode rootPrivKey, err:"
  | .chainCount g w => ascii "chancodes count: " ++ itoa g ++ ascii ", should be " ++ itoa w
  | .chainHex i => ascii "hex decode chaincode err, i: " ++ itoa i
  | .base64 => ascii "msg error, msg base64 decode fail, err:"
  | .parse => ascii "msg error, parse wire msg fail, err:"
  | .msgNull j => ascii "msg is null: " ++ itoa j
  | .payload => ascii "unmarshal r2msg payload err:"
  | .pubxj => ascii "unmarshal r2msg pubxj err:"
  | .ssidMismatch j => ascii "payload.ssid != round.temp.ssid, party: " ++ itoa j
  | .hashMismatch j => ascii "hash != V, party: " ++ itoa j
  | .schnorr j => ascii "schnorr proof verify failed, party: " ++ itoa j
  | .pubkeySum j => ascii "calc pubkey failed, party: " ++ itoa j
  | .saveJson => ascii "round_4 save err: "

/-- What the package uses from outside: the curve `tss.Edwards()`, SHA-512/256, and encoding/json on the
save data (none is a marshalling error). -/
structure Env where
  c : Curve
  H : Bytes → Bytes
  jsonEnc : SaveData → Option Bytes

/-- The package-level map `Parties`, eddsacmp/keygen/local_party.go:67. -/
abbrev Reg := Bytes → Option Party

/-- Map assignment `Parties[key] = p` / `delete(Parties, key)`. -/
def Reg.set (r : Reg) (key : Bytes) (p : Option Party) : Reg := fun k => if k = key then p else r k

/-- The common head of all calls, e.g. eddsacmp/keygen/round_1.go:32-37: look the party up, report
"party not found" if absent; afterwards the party object is mutated in place. -/
def withParty {α : Type} (r : Reg) (key : Bytes) (f : Party → Res Err α × Party) : Res Err α × Reg :=
  match r key with
  | none => (.err (.partyNotFound key), r)
  | some p => let q := f p; (q.1, r.set key (some q.2))

/-- A Go `for` loop over indices whose body may return an error or panic; mutations are kept. -/
def forJ {σ ε : Type} (step : σ → Nat → Res ε Unit × σ) : List Nat → σ → Res ε Unit × σ
  | [], s => (.ok (), s)
  | j :: t, s =>
    match step s j with
    | (.ok _, s') => forJ step t s'
    | (.err e, s') => (.err e, s')
    | (.panic, s') => (.panic, s')

/-! ### Creation -/

/-- eddsacmp/keygen/save_data.go:46-52 `NewLocalPartySaveData`. -/
def newSaveData (n : Nat) : SaveData where
  privXi := none
  shareID := none
  chainCodes := []
  ks := List.replicate n none
  pubXj := List.replicate n none
  eddsaPub := none
  paillierPKs := List.replicate n none
  ringPedersenPKs := List.replicate n none

/-- eddsacmp/keygen/local_party.go:85-89: the loop building the unsorted ids; `i` counts up to the
party count.  none is a panic: `pIDs[i]` out of range, or a nil key given to NewPartyID because
SetString failed. -/
def buildIds (pIDs : List Bytes) : Nat → Nat → Option (List PartyID)
  | _, 0 => some []
  | i, n + 1 =>
    match pIDs[i]? with
    | none => none
    | some s =>
      match PartyID.new (toString i) ("m_" ++ toString i) (parseBig 10 s) with
      | none => none
      | some p => (buildIds pIDs (i + 1) n).map (p :: ·)

/-- A fresh party, eddsacmp/keygen/local_party.go:94-119. -/
def freshParty (n : Nat) (index : Nat) (ids : List PartyID) (priv : Int) : Party where
  index := index
  ids := ids
  save := { newSaveData n with privXi := some priv }
  number := 0
  ok := List.replicate n false
  m1 := List.replicate n []
  m2 := List.replicate n []
  m3 := List.replicate n []
  tau := none
  commitedA := none
  srid := []
  u := []
  ssid := []
  payload := List.replicate n none
  V := List.replicate n []

/-- eddsacmp/keygen/local_party.go:70-124 `NewLocalParty`.  A negative party count makes `make` panic;
`ids[partyIndex]` panics when the index is out of range (before the root key is looked at).
SetLogLevel("tss-lib", "info") cannot fail and is not modelled. -/
def NewLocalParty (r : Reg) (key : Bytes) (partyIndex partyCount : Int) (pIDs : List Bytes)
    (rootPrivKey : Bytes) : Res Err Unit × Reg :=
  if partyCount < 0 then (.panic, r)
  else
    let n := partyCount.toNat
    match buildIds pIDs 0 n with
    | none => (.panic, r)
    | some uIds =>
      let ids := PartyID.SortPartyIDs uIds none
      if 0 ≤ partyIndex ∧ partyIndex < ids.length then
        match hexDecode rootPrivKey with
        | none => (.err .hexRoot, r)
        | some privkey =>
          (.ok (), r.set key (some (freshParty n partyIndex.toNat ids (beNat privkey))))
      else (.panic, r)

/-- eddsacmp/keygen/local_party.go:143-152: parse the chain codes one by one. -/
def parseCodes : Nat → List Bytes → Res Err (List Int)
  | _, [] => .ok []
  | i, s :: t =>
    match parseBig 16 s with
    | none => .err (.chainHex i)
    | some v =>
      match parseCodes (i + 1) t with
      | .ok l => .ok (v :: l)
      | .err e => .err e
      | .panic => .panic

/-- eddsacmp/keygen/local_party.go:127-156 `SaveChainCodes`; '|' is byte 124. -/
def SaveChainCodes (r : Reg) (key chainCodes : Bytes) : Res Err Unit × Reg :=
  withParty r key fun p =>
    let partyCount := p.save.pubXj.length
    let cs := split 124 chainCodes
    if cs.length ≠ partyCount then (.err (.chainCount cs.length partyCount), p)
    else match parseCodes 0 cs with
      | .ok l => (.ok (), { p with save := { p.save with chainCodes := l.map some } })
      | .err e => (.err e, p)
      | .panic => (.panic, p)

/-- eddsacmp/keygen/local_party.go:158-164 `RemoveParty`. -/
def RemoveParty (r : Reg) (key : Bytes) : Bool × Reg :=
  match r key with
  | none => (false, r)
  | some _ => (true, r.set key none)

/-- eddsacmp/keygen/local_party.go:166-170 `resetOK`. -/
def resetOK (p : Party) : Party := { p with ok := p.ok.map fun _ => false }

/-- eddsacmp/keygen/local_party.go:181-189 `getSSID`. -/
def ssidConst : Bytes := ascii "eddsacmp-keygen"

/-! ### Hashes and challenges -/

/-- The commitment of eddsacmp/keygen/round_1.go:70-79 and round_3.go:66-75. -/
def commitHash (H : Bytes → Bytes) (ssid : Bytes) (j : Nat) (srid : Bytes) (X A : ECPoint) (u : Bytes) : Bytes :=
  (Common.SHA512_256 H [ssid, itoa j, srid, intBytes X.x, intBytes X.y, intBytes A.x, intBytes A.y, u]).getD []

/-- The Schnorr challenge of eddsacmp/keygen/round_3.go:88-98 and round_4.go:45-55 (`N ≠ 0`). -/
def challenge (e : Env) (ssid srid : Bytes) (j : Nat) (X A : ECPoint) : Int :=
  (Common.SHA512_256i_TAGGED e.H (ssid ++ srid)
    [some (j : Int), some X.x, some X.y, some A.x, some A.y]).getD 0 % e.c.N

/-! ### Rounds -/

/-- The random draws of round 1 (`priv` is only used when no share is set). -/
structure Rand1 where
  priv : Int
  tau : Int
  u : Bytes
  srid : Bytes

/-- eddsacmp/keygen/round_1.go:39-92: body of `KeygenRound1Exec`.  A nil point (scalar multiplication
left the curve) is dereferenced at lines 74-77 and panics.  Wire marshalling cannot fail. -/
def r1Exec (e : Env) (rnd : Rand1) (p0 : Party) : Res Err Bytes × Party :=
  let p := resetOK { p0 with number := 1 }
  let i := p.index
  let x := p.save.privXi.getD rnd.priv
  let X := ECPoint.scalarBaseMult e.c x
  let A := ECPoint.scalarBaseMult e.c rnd.tau
  let keys := PartyID.Keys p.ids
  let p := { p with
    ssid := ssidConst
    tau := some rnd.tau
    commitedA := A
    u := rnd.u
    srid := rnd.srid
    save := { p.save with
      privXi := some x
      pubXj := p.save.pubXj.set i X
      ks := keys.map some
      shareID := keys[i]? } }
  match X, A with
  | some X, some A =>
    let hash := commitHash e.H ssidConst i rnd.srid X A rnd.u
    let wire := wireBytes (.kg1 hash)
    (.ok wire, { p with m1 := p.m1.set i wire })
  | _, _ => (.panic, p)

/-- eddsacmp/keygen/round_1.go:31-93 `KeygenRound1Exec`. -/
def KeygenRound1Exec (e : Env) (rnd : Rand1) (r : Reg) (key : Bytes) : Res Err Bytes × Reg :=
  withParty r key (r1Exec e rnd)

/-- eddsacmp/keygen/round_1.go:103-123 (= round_2.go:71-91 = round_3.go:127-147): decode, store in the
sender's slot, then parse.  A message of another type dereferences a nil error and panics.  `slots`
and `put` select the round. -/
def accept (kind : Kind) (slots : Party → List Bytes) (put : Party → List Bytes → Party) (frm : Int)
    (msg : Bytes) (p : Party) : Res Err Unit × Party :=
  match b64Decode msg with
  | none => (.err .base64, p)
  | some b =>
    if 0 ≤ frm ∧ frm < (slots p).length then
      let p := put p ((slots p).set frm.toNat b)
      match parseWireMsg b with
      | none => (.err .parse, p)
      | some c => if c.kind = kind then (.ok (), p) else (.panic, p)
    else (.panic, p)

/-- eddsacmp/keygen/round_1.go:95-124 `KeygenRound1Accept`. -/
def KeygenRound1Accept (r : Reg) (key : Bytes) (frm : Int) (msg : Bytes) : Res Err Unit × Reg :=
  withParty r key (accept .kg1 (·.m1) (fun p l => { p with m1 := l }) frm msg)

/-- eddsacmp/keygen/round_2.go:63-92 `KeygenRound2Accept`. -/
def KeygenRound2Accept (r : Reg) (key : Bytes) (frm : Int) (msg : Bytes) : Res Err Unit × Reg :=
  withParty r key (accept .kg2 (·.m2) (fun p l => { p with m2 := l }) frm msg)

/-- eddsacmp/keygen/round_3.go:119-148 `KeygenRound3Accept`. -/
def KeygenRound3Accept (r : Reg) (key : Bytes) (frm : Int) (msg : Bytes) : Res Err Unit × Reg :=
  withParty r key (accept .kg3 (·.m3) (fun p l => { p with m3 := l }) frm msg)

/-- eddsacmp/keygen/round_1.go:134-144 (= round_2.go:102-112 = round_3.go:158-168): the first missing
message from another party. -/
def finish (index : Nat) : Nat → List Bytes → Res Err Unit
  | _, [] => .ok ()
  | j, m :: t =>
    if j = index then finish index (j + 1) t
    else if m.length = 0 then .err (.msgNull j)
    else finish index (j + 1) t

/-- eddsacmp/keygen/round_1.go:126-145 `KeygenRound1Finish`. -/
def KeygenRound1Finish (r : Reg) (key : Bytes) : Res Err Unit × Reg :=
  withParty r key fun p => (finish p.index 0 p.m1, p)

/-- eddsacmp/keygen/round_2.go:94-113 `KeygenRound2Finish`. -/
def KeygenRound2Finish (r : Reg) (key : Bytes) : Res Err Unit × Reg :=
  withParty r key fun p => (finish p.index 0 p.m2, p)

/-- eddsacmp/keygen/round_3.go:150-169 `KeygenRound3Finish`. -/
def KeygenRound3Finish (r : Reg) (key : Bytes) : Res Err Unit × Reg :=
  withParty r key fun p => (finish p.index 0 p.m3, p)

/-- eddsacmp/keygen/round_2.go:30-37: one iteration of the round-2 loop (own message included). -/
def r2Step (p : Party) (j : Nat) : Res Err Unit × Party :=
  match parseWireMsg (p.m1.getD j []) with
  | none => (.err .parse, p)
  | some (.kg1 commitment) => (.ok (), { p with V := p.V.set j commitment })
  | some _ => (.panic, p)

/-- eddsacmp/keygen/round_2.go:24-59: body of `KeygenRound2Exec`. -/
def r2Exec (p0 : Party) : Res Err Bytes × Party :=
  let p := resetOK { p0 with number := 2 }
  match forJ r2Step (List.range p.m1.length) p with
  | (.ok _, p) =>
    match p.save.pubXj.getD p.index none, p.commitedA with
    | some X, some A =>
      let wire := wireBytes (.kg2 p.ssid p.srid (intBytes X.x) (intBytes X.y) (intBytes A.x) (intBytes A.y)
        p.u [] [] [])
      (.ok wire, { p with m2 := p.m2.set p.index wire })
    | _, _ => (.panic, p)
  | (.err e, p) => (.err e, p)
  | (.panic, p) => (.panic, p)

/-- eddsacmp/keygen/round_2.go:16-61 `KeygenRound2Exec`. -/
def KeygenRound2Exec (r : Reg) (key : Bytes) : Res Err Bytes × Reg := withParty r key r2Exec

/-- eddsacmp/keygen/round_3.go:36-85: one iteration of the round-3 loop. On a failed point check the
pointer already stored is nil. -/
def r3Step (e : Env) (p : Party) (j : Nat) : Res Err Unit × Party :=
  if j = p.index then (.ok (), p)
  else match parseWireMsg (p.m2.getD j []) with
  | none => (.err .parse, p)
  | some (.kg2 ssid srid xx xy ax ay u _ _ _) =>
    match ECPoint.new e.c (beNat ax) (beNat ay) with
    | none => (.err .payload, { p with payload := p.payload.set j none })
    | some A =>
      let p := { p with payload := p.payload.set j (some ⟨A, ssid, srid, u⟩) }
      match ECPoint.new e.c (beNat xx) (beNat xy) with
      | none => (.err .pubxj, { p with save := { p.save with pubXj := p.save.pubXj.set j none } })
      | some X =>
        let p := { p with save := { p.save with pubXj := p.save.pubXj.set j (some X) } }
        if ssid ≠ p.ssid then (.err (.ssidMismatch j), p)
        else if commitHash e.H p.ssid j srid X A u ≠ p.V.getD j [] then (.err (.hashMismatch j), p)
        else (.ok (), { p with srid := xorBytes p.srid srid })
  | some _ => (.panic, p)

/-- eddsacmp/keygen/round_3.go:29-116: body of `KeygenRound3Exec`. -/
def r3Exec (e : Env) (p0 : Party) : Res Err Bytes × Party :=
  let p := resetOK { p0 with number := 3 }
  match forJ (r3Step e) (List.range p.m2.length) p with
  | (.ok _, p) =>
    match p.save.pubXj.getD p.index none, p.commitedA, p.tau, p.save.privXi with
    | some X, some A, some tau, some x =>
      let ch := challenge e p.ssid p.srid p.index X A
      let wire := wireBytes (.kg3 (intBytes (Schnorr.Prove e.c.N tau ch x)) [] [])
      (.ok wire, { p with m3 := p.m3.set p.index wire })
    | _, _, _, _ => (.panic, p)
  | (.err e, p) => (.err e, p)
  | (.panic, p) => (.panic, p)

/-- eddsacmp/keygen/round_3.go:22-117 `KeygenRound3Exec`. -/
def KeygenRound3Exec (e : Env) (r : Reg) (key : Bytes) : Res Err Bytes × Reg := withParty r key (r3Exec e)

/-- eddsacmp/keygen/round_4.go:34-63: one iteration of the verification loop (changes nothing). -/
def r4Step (e : Env) (p : Party) (j : Nat) : Res Err Unit × Party :=
  if j = p.index then (.ok (), p)
  else match parseWireMsg (p.m3.getD j []) with
  | none => (.err .parse, p)
  | some c =>
    match p.save.pubXj.getD j none, p.payload.getD j none with
    | some X, some pl =>
      let ch := challenge e p.ssid p.srid j X pl.commitedA
      match c with
      | .kg3 schProof _ _ =>
        match Schnorr.Verify e.c (beNat schProof) pl.commitedA X ch with
        | .ok true => (.ok (), p)
        | .ok false => (.err (.schnorr j), p)
        | .err _ => (.panic, p)
        | .panic => (.panic, p)
      | _ => (.panic, p)
    | _, _ => (.panic, p)

/-- eddsacmp/keygen/round_4.go:69-80: add up the public shares after the first. -/
def sumPub (c : Curve) : Nat → ECPoint → List (Option ECPoint) → Res Err ECPoint
  | _, acc, [] => .ok acc
  | _, _, none :: _ => .panic
  | j, acc, some X :: t =>
    match ECPoint.add c acc X with
    | none => .err (.pubkeySum j)
    | some s => sumPub c (j + 1) s t

/-- eddsacmp/keygen/round_4.go:27-93: body of `KeygenRound4Exec`; the first share is dereferenced by the
log line of the loop. -/
def r4Exec (e : Env) (p0 : Party) : Res Err Bytes × Party :=
  let p := resetOK { p0 with number := 4 }
  match forJ (r4Step e) (List.range p.m3.length) p with
  | (.ok _, p) =>
    match p.save.pubXj with
    | some X0 :: t =>
      match sumPub e.c 1 X0 t with
      | .ok s =>
        let p := { p with save := { p.save with eddsaPub := some s } }
        match e.jsonEnc p.save with
        | some b => (.ok b, p)
        | none => (.err .saveJson, p)
      | .err er => (.err er, p)
      | .panic => (.panic, p)
    | _ => (.panic, p)
  | (.err e, p) => (.err e, p)
  | (.panic, p) => (.panic, p)

/-- eddsacmp/keygen/round_4.go:19-94 `KeygenRound4Exec`. -/
def KeygenRound4Exec (e : Env) (r : Reg) (key : Bytes) : Res Err Bytes × Reg := withParty r key (r4Exec e)

end Tss.Keygen
