import Verif.Model.SaveData
import Verif.Model.EdVerify
import Verif.Model.Ckd
import Verif.Model.Paillier
import Verif.Model.RangeProofs
/-
Model of /repo/eddsacmp/onsign: local_party.go, round_1.go, round_2.go, round_3.go, round_final.go,
message/messages.go, and of the marshalling of the two proof messages.  Log output is not modelled.  The curve is
`tss.Edwards()` throughout.
-/
namespace Tss.Onsign
open Tss Text Wire RangeProofs

/-! ### Proof messages on the wire -/

/-- proto.Marshal of crypto/encproof `EncryptRangeMessage` (field numbers of enc_msg.pb.go).  The two string fields
hold decimal numbers, so the UTF-8 check of the encoder cannot fail. -/
def encMarshal (m : EncMsg) : Bytes :=
  encField 1 m.salt ++ encField 2 m.S ++ encField 3 m.A ++ encField 4 m.C ++ encField 5 m.z1 ++ encField 6 m.z2 ++
    encField 7 m.z3

/-- eddsacmp/onsign/message/messages.go:74-80 `UnmarshalEncProof`; none is an error. -/
def encUnmarshal (b : Bytes) : Option EncMsg :=
  match parseFields b with
  | none => none
  | some l =>
    if stringsOk 5 l && stringsOk 7 l then
      some {
        salt := getBytes 1 l
        S := getBytes 2 l
        A := getBytes 3 l
        C := getBytes 4 l
        z1 := getBytes 5 l
        z2 := getBytes 6 l
        z3 := getBytes 7 l }
    else none

/-- proto.Marshal of crypto/logproof `LogStarMessage`. -/
def logMarshal (m : LogMsg) : Bytes :=
  encField 1 m.salt ++ encField 2 m.S ++ encField 3 m.A ++ encField 4 m.Yx ++ encField 5 m.Yy ++ encField 6 m.D ++
    encField 7 m.z1 ++ encField 8 m.z2 ++ encField 9 m.z3

/-- eddsacmp/onsign/message/messages.go:122-128 `UnmarshalLogProof`; none is an error. -/
def logUnmarshal (b : Bytes) : Option LogMsg :=
  match parseFields b with
  | none => none
  | some l =>
    if stringsOk 7 l && stringsOk 9 l then
      some {
        salt := getBytes 1 l
        S := getBytes 2 l
        A := getBytes 3 l
        Yx := getBytes 4 l
        Yy := getBytes 5 l
        D := getBytes 6 l
        z1 := getBytes 7 l
        z2 := getBytes 8 l
        z3 := getBytes 9 l }
    else none

/-! ### State -/

/-- common `SignatureData` (protob/signature.proto; the recovery field is never set). -/
structure SigData where
  signature : Bytes
  r : Bytes
  s : Bytes
  m : Bytes
  deriving DecidableEq

/-- eddsacmp/onsign/local_party.go:32-75 `LocalParty` with its message stores and temporary data; nil pointers are
`none`.  `ssidNonce` is written but never read, `fullBytesLen` is never set (0); neither is modelled. -/
structure Party where
  index : Nat
  ids : List PartyID
  keys : Keygen.SaveData
  data : SigData
  number : Nat
  ok : List Bool
  m11 : List Bytes
  m12 : List Bytes
  m2 : List Bytes
  m3 : List Bytes
  send12 : List Bytes
  send2 : List Bytes
  k : Option Int
  rho : Option Int
  kc : List (Option Int)
  m : Int
  si : Option Bytes
  r : Option Int
  ssid : Bytes
  deriving DecidableEq

/-- Error returns of the package. -/
inductive Err where
  | partyNotFound (key : Bytes)
  | round2FinishNotFound
  | base64Keys
  | json
  | walletPath (path : Bytes)
  | derivePriv
  | hexRefresh
  | subset (key : Bytes)
  | hexMsg
  | pubkeySum (j : Nat)
  | encrypt (i : Nat)
  | encProof (j : Nat)
  | base64
  | parse
  | parse1
  | parse2
  | notRound1
  | notRound2
  | notRound3
  | msg1Null (j : Nat)
  | msg2Null (j : Nat)
  | msgNull (j : Nat)
  | unmarshalEnc (j : Nat)
  | verifyEnc (j : Nat)
  | basePoint
  | logCreate
  | logSelf (j : Nat)
  | unmarshalLog (j : Nat)
  | unmarshalR (j : Nat)
  | verifyLog (j : Nat)
  | verifyFailed
  | saveJson
  deriving DecidableEq

/-- The `Err` string of the result (without the detail of the error it quotes). -/
def Err.text : Err → Bytes
  | .partyNotFound k => ascii "party not found: " ++ k
  | .round2FinishNotFound => ascii "not SignRound1Message2"
  | .base64Keys => ascii "base64 decode keygen data fail, err:"
  | .json => ascii "unmarshal keygen save data err: "
  | .walletPath p => ascii "wallet path err: " ++ p
  | .derivePriv => ascii "deriveChildPrivateKey err: "
  | .hexRefresh => ascii "hex decode refresh data fail, err:"
  | .subset k => ascii "unable to find a signer party in the local save data, id.Key: " ++ hexEncode k
  | .hexMsg => ascii "hex decode msg err: "
  | .pubkeySum j => ascii "calc pubkey failed, party: " ++ itoa j
  | .encrypt i => ascii "P[" ++ itoa i ++ ascii "]: create enc proof failed: "
  | .encProof j => ascii "create enc proof failed: , party: " ++ itoa j
  | .base64 => ascii "msg error, msg base64 decode fail, err:"
  | .parse => ascii "msg error, parse wire msg fail, err:"
  | .parse1 => ascii "msg error, parse wire msg1 fail, err:"
  | .parse2 => ascii "msg error, parse wire msg2 fail, err:"
  | .notRound1 => ascii "not SignRound1Message"
  | .notRound2 => ascii "not SignRound2Message"
  | .notRound3 => ascii "not SignRound3Message"
  | .msg1Null j => ascii "msg1 is null: " ++ itoa j
  | .msg2Null j => ascii "msg2 is null: " ++ itoa j
  | .msgNull j => ascii "msg is null: " ++ itoa j
  | .unmarshalEnc j => ascii "unmarshal enc proof failed, party: " ++ itoa j
  | .verifyEnc j => ascii "verify enc proof failed, party: " ++ itoa j
  | .basePoint => ascii "create base point failed"
  | .logCreate => ascii "create log proof failed"
  | .logSelf j => ascii "verify my log proof failed: , party: " ++ itoa j
  | .unmarshalLog j => ascii "failed to unmarshal log proof: , party: " ++ itoa j
  | .unmarshalR j => ascii "unmarshal R failed: , party: " ++ itoa j
  | .verifyLog j => ascii "verify log proof failed: , party: " ++ itoa j
  | .verifyFailed => ascii "verify failed"
  | .saveJson => ascii "round_final save err: "

/-- What the package uses from outside: BLAKE2b-256, SHA-512, the two hashes of key derivation, encoding/json of the
key-generation save data and of the signature (concrete in Model/SaveJson.lean), and the bytes that lie in
memory behind the slice `hex.DecodeString` returns for a given text (Go slices may be re-sliced up to their
capacity; the in-place decoder of Go 1.21 leaves at least the second half of the text there). -/
structure Env where
  Hb : Bytes → Bytes
  sha512 : Bytes → Bytes
  hash160 : Bytes → Bytes
  hmac512 : Bytes → Bytes → Bytes
  jsonDec : Bytes → Option Keygen.SaveData
  jsonSig : SigData → Option Bytes
  hexTail : Bytes → Bytes

/-- The environment of key derivation: curve `edwards.Edwards()`. -/
def Env.ckd (e : Env) : Ckd.Env := ⟨Ed.curve, e.hash160, e.hmac512⟩

/-- eddsacmp/onsign/round_1.go:34 `ProofParameter`. -/
def proofParameter : ProofConfig := NewProofConfig Ed.curve.N

/-- The package-level map `SignParties`, eddsacmp/onsign/local_party.go:77. -/
abbrev Reg := Bytes → Option Party

/-- Map assignment and delete. -/
def Reg.set (r : Reg) (key : Bytes) (p : Option Party) : Reg := fun k => if k = key then p else r k

/-- The common head of all calls, e.g. eddsacmp/onsign/round_1.go:37-42: look the party up; afterwards it is mutated
in place.  `nf` is the error for an absent party. -/
def withParty {α : Type} (nf : Err) (r : Reg) (key : Bytes) (f : Party → Res Err α × Party) : Res Err α × Reg :=
  match r key with
  | none => (.err nf, r)
  | some p => let q := f p; (q.1, r.set key (some q.2))

/-- eddsacmp/onsign/local_party.go:227-231 `resetOK`. -/
def resetOK (p : Party) : Party := { p with ok := p.ok.map fun _ => false }

/-! ### Creation -/

/-- Arguments of `NewLocalParty` beyond the key. -/
structure NewArgs where
  partyIndex : Int
  partyCount : Int
  pIDs : List Bytes
  msg : Bytes
  keyData : Bytes
  refresh : Bytes
  path : Bytes

/-- eddsacmp/onsign/local_party.go:142-153: derive every public share with its own chain code.  A missing or nil chain
code, a nil share and a failing derivation all panic (the last because a nil error is formatted).  If the first path
component is itself malformed a nil share would also end in that panic. -/
def derivePubs (E : Ckd.Env) (deduce : ECPoint) (path : Bytes) : List (Option ECPoint) → List (Option Int) →
    Res Err (List (Option ECPoint))
  | [], _ => .ok []
  | some X :: t, some c :: cs =>
    match Ckd.deriveEddsaChildPubKey E X deduce (intBytes c) path with
    | .ok Q =>
      match derivePubs E deduce path t cs with
      | .ok l => .ok (some Q :: l)
      | .err e => .err e
      | .panic => .panic
    | .err _ => .panic
    | .panic => .panic
  | _ :: _, _ => .panic

/-- Go slice expression `b[i:j]` of a slice whose backing array holds `b ++ tail`: panics (none) beyond the capacity. -/
def sliceCap (b tail : Bytes) (i j : Nat) : Option Bytes :=
  if j ≤ (b ++ tail).length then some (((b ++ tail).take j).drop i) else none

/-- eddsacmp/onsign/local_party.go:162-174: the per-party moduli at fixed offsets of the refresh payload; `j` is the
running offset. none is a panic. -/
def parseRefresh (b tail : Bytes) : Nat → Nat → Option (List (Option Int) × List (Option (Int × Int × Int)))
  | _, 0 => some ([], [])
  | j, n + 1 =>
    match sliceCap b tail (j + 33) (j + 289), sliceCap b tail (j + 289) (j + 417), sliceCap b tail (j + 417) (j + 545),
        sliceCap b tail (j + 545) (j + 673) with
    | some n0, some pn, some ps, some pt =>
      match parseRefresh b tail (j + 673) n with
      | some (l1, l2) => some (some (beNat n0 : Int) :: l1, some ((beNat pn : Int), (beNat ps : Int), (beNat pt : Int)) :: l2)
      | none => none
    | _, _, _, _ => none

/-- A fresh party, eddsacmp/onsign/local_party.go:182-206. -/
def freshParty (n index : Nat) (ids : List PartyID) (keys : Keygen.SaveData) (m : Int) : Party where
  index := index
  ids := ids
  keys := keys
  data := ⟨[], [], [], []⟩
  number := 0
  ok := List.replicate n false
  m11 := List.replicate n []
  m12 := List.replicate n []
  m2 := List.replicate n []
  m3 := List.replicate n []
  send12 := List.replicate n []
  send2 := List.replicate n []
  k := none
  rho := none
  kc := List.replicate n none
  m := m
  si := none
  r := none
  ssid := []

/-- eddsacmp/onsign/local_party.go:119-180 for decoded save data and a valid party index: derive the child keys, read
the refresh payload, select the signing parties.  A nil private or public share of the party, a nil group key, or a
missing or nil chain code panics. -/
def prepareKeys (e : Env) (idx n : Nat) (ids : List PartyID) (refresh path : Bytes) (d : Keygen.SaveData) :
    Res Err Keygen.SaveData :=
  if (split 47 path).length ≠ 5 then .err (.walletPath path)
  else match d.chainCodes[idx]?, d.privXi, d.pubXj[idx]?, d.eddsaPub with
  | some (some code), some priv, some (some pub), some deduce =>
    match Ckd.deriveEddsaChildPrivKey e.ckd priv pub deduce (intBytes code) path with
    | .err _ => .err .derivePriv
    | .panic => .panic
    | .ok (child, _) =>
      match derivePubs e.ckd deduce path d.pubXj d.chainCodes with
      | .err er => .err er
      | .panic => .panic
      | .ok pubs =>
        match hexDecode refresh with
        | none => .err .hexRefresh
        | some payload =>
          match parseRefresh payload (e.hexTail refresh) 1376 n with
          | none => .panic
          | some (pks, peds) =>
            match Keygen.BuildLocalSaveDataSubset { d with
                privXi := some (beNat child : Int)
                pubXj := pubs
                paillierPKs := pks
                ringPedersenPKs := peds } ids with
            | .err k => .err (.subset k)
            | .panic => .panic
            | .ok keys => .ok keys
  | _, _, _, _ => .panic

/-- eddsacmp/onsign/local_party.go:79-211 `NewLocalParty`. -/
def NewLocalParty (e : Env) (r : Reg) (key : Bytes) (a : NewArgs) : Res Err Unit × Reg :=
  if a.partyCount < 0 then (.panic, r)
  else
    let n := a.partyCount.toNat
    match Keygen.buildIds a.pIDs 0 n with
    | none => (.panic, r)
    | some uIds =>
      let ids := PartyID.SortPartyIDs uIds none
      if 0 ≤ a.partyIndex ∧ a.partyIndex < ids.length then
        match b64Decode a.keyData with
        | none => (.err .base64Keys, r)
        | some kb =>
          match e.jsonDec kb with
          | none => (.err .json, r)
          | some d =>
            match prepareKeys e a.partyIndex.toNat n ids a.refresh a.path d with
            | .err er => (.err er, r)
            | .panic => (.panic, r)
            | .ok keys =>
              match hexDecode a.msg with
              | none => (.err .hexMsg, r)
              | some m => (.ok (), r.set key (some (freshParty n a.partyIndex.toNat ids keys (beNat m))))
      else (.panic, r)

/-- eddsacmp/onsign/local_party.go:213-219 `RemoveSignParty`. -/
def RemoveSignParty (r : Reg) (key : Bytes) : Bool × Reg :=
  match r key with
  | none => (false, r)
  | some _ => (true, r.set key none)

/-- eddsacmp/onsign/local_party.go:241-262 `getSSID`. -/
def ssidConst : Bytes := ascii "eddsacmp-onsign"

/-- `append(party.temp.ssid, big.NewInt(j).Bytes()...)` (round_1.go:99, round_2.go:65, 86, round_3.go:75).  The append
may write into the spare capacity of the ssid slice; nobody reads it there. -/
def context (ssid : Bytes) (j : Nat) : Bytes := ssid ++ intBytes (j : Int)

/-! ### Round 1 -/

/-- The random draws of round 1: the nonce, the encryption randomness, the draws of the proof for each receiver. -/
structure Rand1 where
  k : Int
  rho : Int
  enc : Nat → Draws

/-- eddsacmp/onsign/round_1.go:102-130: one iteration of the proof loop. -/
def r1Step (e : Env) (rnd : Rand1) (n K : Int) (p : Party) (j : Nat) : Res Err Unit × Party :=
  match p.keys.ringPedersenPKs.getD j none with
  | none => (.panic, p)
  | some ped =>
    match NewEncryptRangeMessage e.Hb proofParameter (context p.ssid p.index) K n rnd.k rnd.rho ped (rnd.enc j) with
    | .err _ => (.err (.encProof j), p)
    | .panic => (.panic, p)
    | .ok msg =>
      let w := wireBytes (.sg1b (encMarshal msg))
      (.ok (), { p with
        send12 := p.send12.set j w
        m12 := if j = p.index then p.m12.set j w else p.m12 })

/-- Add up the public shares after the first, eddsacmp/onsign/round_1.go:58-70. -/
def sumPub (j : Nat) (X : ECPoint) (l : List (Option ECPoint)) : Res Err ECPoint :=
  match Keygen.sumPub Ed.curve j X l with
  | .ok s => .ok s
  | .err (.pubkeySum j) => .err (.pubkeySum j)
  | _ => .panic

/-- eddsacmp/onsign/round_1.go:96-134: the proof loop, after the ciphertext `K` has been stored. -/
def r1Proofs (e : Env) (rnd : Rand1) (n K : Int) (p : Party) : Res Err Bytes × Party :=
  match Keygen.forJ (r1Step e rnd n K) (List.range p.ids.length) p with
  | (.ok _, p) => (.ok (wireBytes (.sg1a (intBytes K))), p)
  | (.err er, p) => (.err er, p)
  | (.panic, p) => (.panic, p)

/-- eddsacmp/onsign/round_1.go:72-134: encrypt the nonce; a nil Paillier key is dereferenced by `Encrypt`. -/
def r1Encrypt (e : Env) (rnd : Rand1) (p : Party) : Res Err Bytes × Party :=
  match p.keys.paillierPKs.getD p.index none with
  | none => (.panic, p)
  | some n =>
    if rnd.k < 0 ∨ ¬ rnd.k < n then (.err (.encrypt p.index), p)
    else match Paillier.cipher n rnd.k rnd.rho with
    | none => (.panic, p)
    | some K => r1Proofs e rnd n K { p with
        rho := some rnd.rho
        kc := p.kc.set p.index (some K)
        m11 := p.m11.set p.index (wireBytes (.sg1a (intBytes K))) }

/-- eddsacmp/onsign/round_1.go:54-134: recompute the group key from the shares.  The first share is dereferenced by
the log line of the loop. -/
def r1Body (e : Env) (rnd : Rand1) (p : Party) : Res Err Bytes × Party :=
  match p.keys.pubXj with
  | some X0 :: t =>
    match sumPub 1 X0 t with
    | .err er => (.err er, p)
    | .panic => (.panic, p)
    | .ok s => r1Encrypt e rnd { p with keys := { p.keys with eddsaPub := some s }, k := some rnd.k }
  | _ => (.panic, p)

/-- eddsacmp/onsign/round_1.go:44-134: body of `OnSignRound1Exec`. -/
def r1Exec (e : Env) (rnd : Rand1) (p : Party) : Res Err Bytes × Party :=
  r1Body e rnd { resetOK { p with number := 1 } with ssid := ssidConst }

/-- eddsacmp/onsign/round_1.go:36-135 `OnSignRound1Exec`. -/
def OnSignRound1Exec (e : Env) (rnd : Rand1) (r : Reg) (key : Bytes) : Res Err Bytes × Reg :=
  withParty (.partyNotFound key) r key (r1Exec e rnd)

/-- eddsacmp/onsign/round_1.go:144-146 and round_2.go:139-141: the stored message for receiver `to`. -/
def getMsg (slots : List Bytes) (to : Int) : Res Err Bytes :=
  if 0 ≤ to ∧ to < slots.length then .ok (slots.getD to.toNat []) else .panic

/-- eddsacmp/onsign/round_1.go:137-147 `GetRound1Msg2`. -/
def GetRound1Msg2 (r : Reg) (key : Bytes) (to : Int) : Res Err Bytes × Reg :=
  withParty (.partyNotFound key) r key fun p => (getMsg p.send12 to, p)

/-- eddsacmp/onsign/round_1.go:157-180: body of `OnSignRound1MsgAccept`: parse first, then store by type. -/
def r1Accept (frm : Int) (msg : Bytes) (p : Party) : Res Err Unit × Party :=
  match b64Decode msg with
  | none => (.err .base64, p)
  | some b =>
    match parseWireMsg b with
    | none => (.err .parse, p)
    | some (.sg1a _) =>
      if 0 ≤ frm ∧ frm < p.m11.length then (.ok (), { p with m11 := p.m11.set frm.toNat b }) else (.panic, p)
    | some (.sg1b _) =>
      if 0 ≤ frm ∧ frm < p.m12.length then (.ok (), { p with m12 := p.m12.set frm.toNat b }) else (.panic, p)
    | some _ => (.err .notRound1, p)

/-- eddsacmp/onsign/round_1.go:149-181 `OnSignRound1MsgAccept`. -/
def OnSignRound1MsgAccept (r : Reg) (key : Bytes) (frm : Int) (msg : Bytes) : Res Err Unit × Reg :=
  withParty (.partyNotFound key) r key (r1Accept frm msg)

/-- eddsacmp/onsign/round_1.go:191-202: both messages of every party, the own ones included. -/
def finish1 : Nat → List Bytes → List Bytes → Res Err Unit
  | _, _, [] => .ok ()
  | _, [], _ :: _ => .panic
  | j, a :: t, b :: u =>
    if a.length = 0 then .err (.msg1Null j) else if b.length = 0 then .err (.msg2Null j) else finish1 (j + 1) t u

/-- eddsacmp/onsign/round_1.go:183-203 `OnSignRound1Finish`. -/
def OnSignRound1Finish (r : Reg) (key : Bytes) : Res Err Unit × Reg :=
  withParty (.partyNotFound key) r key fun p => (finish1 0 p.m11 p.m12, p)

/-! ### Round 2 -/

/-- eddsacmp/onsign/round_2.go:37-74: one iteration of the verification loop. -/
def r2Verify (e : Env) (p : Party) (j : Nat) : Res Err Unit × Party :=
  if j = p.index then (.ok (), p)
  else match parseWireMsg (p.m11.getD j []) with
  | none => (.err .parse1, p)
  | some (.sg1a bigK) =>
    let K : Int := beNat bigK
    let p := { p with kc := p.kc.set j (some K) }
    match parseWireMsg (p.m12.getD j []) with
    | none => (.err .parse2, p)
    | some (.sg1b proof) =>
      match encUnmarshal proof with
      | none => (.err (.unmarshalEnc j), p)
      | some m =>
        match p.keys.paillierPKs.getD j none, p.keys.ringPedersenPKs.getD p.index none with
        | some n, some ped =>
          match m.verify e.Hb proofParameter (context p.ssid j) K n ped with
          | .ok _ => (.ok (), p)
          | .err _ => (.err (.verifyEnc j), p)
          | .panic => (.panic, p)
        | _, _ => (.panic, p)
    | some _ => (.panic, p)
  | some _ => (.panic, p)

/-- eddsacmp/onsign/round_2.go:89-126: one iteration of the proof loop; each proof is checked before it is stored. -/
def r2Prove (e : Env) (draws : Nat → Draws) (k rho K n : Int) (Ri G : ECPoint) (p : Party) (j : Nat) :
    Res Err Unit × Party :=
  match p.keys.ringPedersenPKs.getD j none with
  | none => (.panic, p)
  | some ped =>
    match NewKnowExponent e.Hb Ed.curve proofParameter (context p.ssid p.index) k rho K n ped Ri G (draws j) with
    | .err _ => (.err .logCreate, p)
    | .panic => (.panic, p)
    | .ok m =>
      match m.verify e.Hb Ed.curve proofParameter (context p.ssid p.index) K n ped Ri G with
      | .err _ => (.err (.logSelf j), p)
      | .panic => (.panic, p)
      | .ok _ =>
        let w := wireBytes (.sg2 (intBytes Ri.x) (intBytes Ri.y) (logMarshal m))
        (.ok (), { p with
          send2 := p.send2.set j w
          m2 := if j = p.index then p.m2.set j w else p.m2 })

/-- eddsacmp/onsign/round_2.go:30-129: body of `OnsignRound2Exec`.  A nil nonce panics in `Mod`; nil encryption
randomness, ciphertext or Paillier key panic in the first proof. -/
def r2Exec (e : Env) (draws : Nat → Draws) (p0 : Party) : Res Err Unit × Party :=
  let p := resetOK { p0 with number := 2 }
  match Keygen.forJ (r2Verify e) (List.range p.m11.length) p with
  | (.err er, p) => (.err er, p)
  | (.panic, p) => (.panic, p)
  | (.ok _, p) =>
    match p.k with
    | none => (.panic, p)
    | some k =>
      match ECPoint.new Ed.curve Ed.curve.Gx Ed.curve.Gy with
      | none => (.err .basePoint, p)
      | some G =>
        match ECPoint.scalarBaseMult Ed.curve k, p.rho, p.kc.getD p.index none, p.keys.paillierPKs.getD p.index none with
        | some Ri, some rho, some K, some n =>
          Keygen.forJ (r2Prove e draws k rho K n Ri G) (List.range p.ids.length) p
        | _, _, _, _ => (.panic, p)

/-- eddsacmp/onsign/round_2.go:22-130 `OnsignRound2Exec`. -/
def OnsignRound2Exec (e : Env) (draws : Nat → Draws) (r : Reg) (key : Bytes) : Res Err Unit × Reg :=
  withParty (.partyNotFound key) r key (r2Exec e draws)

/-- eddsacmp/onsign/round_2.go:132-142 `GetRound2Msg`. -/
def GetRound2Msg (r : Reg) (key : Bytes) (to : Int) : Res Err Bytes × Reg :=
  withParty (.partyNotFound key) r key fun p => (getMsg p.send2 to, p)

/-- eddsacmp/onsign/round_2.go:152-172 and round_3.go:149-169: store first, then parse. -/
def accept (kind : Kind) (wrong : Err) (slots : Party → List Bytes) (put : Party → List Bytes → Party) (frm : Int)
    (msg : Bytes) (p : Party) : Res Err Unit × Party :=
  match b64Decode msg with
  | none => (.err .base64, p)
  | some b =>
    if 0 ≤ frm ∧ frm < (slots p).length then
      let p := put p ((slots p).set frm.toNat b)
      match parseWireMsg b with
      | none => (.err .parse, p)
      | some c => if c.kind = kind then (.ok (), p) else (.err wrong, p)
    else (.panic, p)

/-- eddsacmp/onsign/round_2.go:144-173 `OnSignRound2MsgAccept`. -/
def OnSignRound2MsgAccept (r : Reg) (key : Bytes) (frm : Int) (msg : Bytes) : Res Err Unit × Reg :=
  withParty (.partyNotFound key) r key (accept .sg2 .notRound2 (·.m2) (fun p l => { p with m2 := l }) frm msg)

/-- eddsacmp/onsign/round_2.go:183-190 and round_3.go:180-187: every slot, the own one included. -/
def finish : Nat → List Bytes → Res Err Unit
  | _, [] => .ok ()
  | j, m :: t => if m.length = 0 then .err (.msgNull j) else finish (j + 1) t

/-- eddsacmp/onsign/round_2.go:175-191 `OnSignRound2Finish` (an absent party is reported by another text). -/
def OnSignRound2Finish (r : Reg) (key : Bytes) : Res Err Unit × Reg :=
  withParty .round2FinishNotFound r key fun p => (finish 0 p.m2, p)

/-! ### Round 3 -/

/-- eddsacmp/onsign/round_3.go:48-93: one iteration of the verification loop; `zs j` is the random draw of
`ecPointToExtendedElement`.  The loop does not change the party. -/
def r3Step (e : Env) (zs : Nat → Int) (G : ECPoint) (p : Party) (R : Ed.Ext) (j : Nat) : Res Err Unit × Ed.Ext :=
  if j = p.index then (.ok (), R)
  else match parseWireMsg (p.m2.getD j []) with
  | none => (.err .parse, R)
  | some (.sg2 rx ry lp) =>
    match logUnmarshal lp with
    | none => (.err (.unmarshalLog j), R)
    | some m =>
      match ECPoint.new Ed.curve (beNat rx) (beNat ry) with
      | none => (.err (.unmarshalR j), R)
      | some Rj =>
        match p.kc.getD j none, p.keys.paillierPKs.getD j none, p.keys.ringPedersenPKs.getD p.index none with
        | some K, some n, some ped =>
          match m.verify e.Hb Ed.curve proofParameter (context p.ssid j) K n ped Rj G with
          | .err _ => (.err (.verifyLog j), R)
          | .panic => (.panic, R)
          | .ok _ =>
            match ECPoint.eightInvEight Ed.curve Rj with
            | .ok (some Rj) => (.ok (), R.add (Ed.ecPointToExtendedElement Rj.x Rj.y (zs j)))
            | _ => (.panic, R)
        | _, _, _ => (.panic, R)
  | some _ => (.panic, R)

/-- eddsacmp/onsign/round_3.go:30-138: body of `OnsignRound3Exec`. -/
def r3Exec (e : Env) (zs : Nat → Int) (p0 : Party) : Res Err Bytes × Party :=
  let p := resetOK { p0 with number := 3 }
  let ri := Ed.bigIntToEncodedBytes p.k
  match ECPoint.new Ed.curve Ed.curve.Gx Ed.curve.Gy with
  | none => (.err .basePoint, p)
  | some G =>
    match Keygen.forJ (r3Step e zs G p) (List.range p.m2.length) (Ed.geScalarMultBase ri) with
    | (.err er, _) => (.err er, p)
    | (.panic, _) => (.panic, p)
    | (.ok _, R) =>
      match p.keys.eddsaPub with
      | none => (.panic, p)
      | some A =>
        let encR := R.toBytes
        let lambda := Ed.scReduce (e.sha512 (encR ++ Ed.ecPointToEncodedBytes A.x A.y ++ intBytes p.m))
        let si := Ed.scMulAdd lambda (Ed.bigIntToEncodedBytes p.keys.privXi) ri
        let w := wireBytes (.sg3 (intBytes (Ed.encodedBytesToBigInt si)))
        (.ok w, { p with
          si := some si
          r := some (Ed.encodedBytesToBigInt encR)
          m3 := p.m3.set p.index w })

/-- eddsacmp/onsign/round_3.go:22-139 `OnsignRound3Exec`. -/
def OnsignRound3Exec (e : Env) (zs : Nat → Int) (r : Reg) (key : Bytes) : Res Err Bytes × Reg :=
  withParty (.partyNotFound key) r key (r3Exec e zs)

/-- eddsacmp/onsign/round_3.go:141-170 `OnSignRound3MsgAccept`. -/
def OnSignRound3MsgAccept (r : Reg) (key : Bytes) (frm : Int) (msg : Bytes) : Res Err Unit × Reg :=
  withParty (.partyNotFound key) r key (accept .sg3 .notRound3 (·.m3) (fun p l => { p with m3 := l }) frm msg)

/-- eddsacmp/onsign/round_3.go:172-188 `OnSignRound3Finish`. -/
def OnSignRound3Finish (r : Reg) (key : Bytes) : Res Err Unit × Reg :=
  withParty (.partyNotFound key) r key fun p => (finish 0 p.m3, p)

/-! ### Final -/

/-- eddsacmp/onsign/round_final.go:40-57: one iteration of the summation loop; the state is the party and the
running sum (a nil share is dereferenced by `ScMulAdd`). -/
def finalStep (s : Party × Option Bytes) (j : Nat) : Res Err Unit × (Party × Option Bytes) :=
  let p := { s.1 with ok := s.1.ok.set j true }
  if j = p.index then (.ok (), (p, s.2))
  else match parseWireMsg (p.m3.getD j []) with
  | none => (.err .parse, (p, s.2))
  | some (.sg3 sigma) =>
    match s.2 with
    | none => (.panic, (p, s.2))
    | some sum =>
      (.ok (), (p, some (Ed.scMulAdd sum (Ed.bigIntToEncodedBytes (some 1)) (Ed.bigIntToEncodedBytes (some (beNat sigma))))))
  | some _ => (.panic, (p, s.2))

/-- eddsacmp/onsign/round_final.go:31-94: body of `OnsignFinalExec`. -/
def finalExec (e : Env) (p0 : Party) : Res Err Bytes × Party :=
  let p := resetOK { p0 with number := 4 }
  match Keygen.forJ finalStep (List.range p.ids.length) (p, p.si) with
  | (.err er, (p, _)) => (.err er, p)
  | (.panic, (p, _)) => (.panic, p)
  | (.ok _, (p, none)) => (.panic, p)
  | (.ok _, (p, some sum)) =>
    let s := Ed.encodedBytesToBigInt sum
    match p.r with
    | none => (.panic, { p with data := { p.data with signature := Ed.bigIntToEncodedBytes none ++ sum } })
    | some r =>
      let p := { p with data := ⟨Ed.bigIntToEncodedBytes (some r) ++ sum, intBytes r, intBytes s, intBytes p.m⟩ }
      match p.keys.eddsaPub with
      | none => (.panic, p)
      | some A =>
        if Ed.edwardsVerify e.sha512 A.x A.y p.data.m r s then
          match e.jsonSig p.data with
          | none => (.err .saveJson, p)
          | some b => (.ok b, p)
        else (.err .verifyFailed, p)

/-- eddsacmp/onsign/round_final.go:23-95 `OnsignFinalExec`. -/
def OnsignFinalExec (e : Env) (r : Reg) (key : Bytes) : Res Err Bytes × Reg :=
  withParty (.partyNotFound key) r key (finalExec e)

end Tss.Onsign
