import Verif.Model.OnsignOps
import Verif.Model.JsonText
/-
Model of /repo/eddsa.go, the exported surface of the library: every function forwards to package keygen or onsign and
copies the result record.  A result of a crashed call is `none`.  Error texts are without the detail of the error
they quote (see `Keygen.Err.text`, `Onsign.Err.text`).
-/
namespace Tss.Api
open Tss Text World

/-- eddsa.go:15-19 `MpcExecResult`; `data` none is the nil slice. -/
structure MpcExecResult where
  ok : Bool
  err : Bytes
  data : Option Bytes
  deriving DecidableEq

/-- eddsa.go:21-24 `MpcResult`. -/
structure MpcResult where
  ok : Bool
  err : Bytes
  deriving DecidableEq

/-- encoding/json of a bool. -/
def jsonBool (b : Bool) : Bytes := if b then ascii "true" else ascii "false"

/-- encoding/json of a byte slice: null, or standard base64. -/
def jsonBytes : Option Bytes → Bytes
  | none => ascii "null"
  | some b => 34 :: b64Encode b ++ [34]

/-- eddsa.go:26-29 `MpcExecResult.ToJson`; `json.Marshal` of this record cannot fail. -/
def MpcExecResult.ToJson (r : MpcExecResult) : Bytes :=
  ascii "{\"ok\":" ++ jsonBool r.ok ++ ascii ",\"error\":" ++ Json.text r.err ++ ascii ",\"data\":" ++ jsonBytes r.data ++ ascii "}"

/-- eddsa.go:31-34 `MpcResult.ToJson`. -/
def MpcResult.ToJson (r : MpcResult) : Bytes :=
  ascii "{\"ok\":" ++ jsonBool r.ok ++ ascii ",\"error\":" ++ Json.text r.err ++ ascii "}"

/-- The record `keygen.KeygenExecResult` (eddsacmp/keygen/round_1.go) of an outcome. -/
def kgExec : Res Keygen.Err Bytes → Option MpcExecResult
  | .ok b => some ⟨true, [], some b⟩
  | .err e => some ⟨false, e.text, none⟩
  | .panic => none

/-- The record `keygen.KeygenResult` of an outcome. -/
def kgRes : Res Keygen.Err Unit → Option MpcResult
  | .ok _ => some ⟨true, []⟩
  | .err e => some ⟨false, e.text⟩
  | .panic => none

/-- The record `onsign.OnsignExecResult` of an outcome; an empty message slot is the nil slice. -/
def sgExec : Res Onsign.Err Bytes → Option MpcExecResult
  | .ok b => some ⟨true, [], if b = [] then none else some b⟩
  | .err e => some ⟨false, e.text, none⟩
  | .panic => none

/-- The record `onsign.OnsignResult` of an outcome. -/
def sgRes : Res Onsign.Err Unit → Option MpcResult
  | .ok _ => some ⟨true, []⟩
  | .err e => some ⟨false, e.text⟩
  | .panic => none

/-- eddsa.go:190-196 `execResFromKeygen`. -/
def execResFromKeygen (res : MpcExecResult) : MpcExecResult := ⟨res.ok, res.err, res.data⟩

/-- eddsa.go:198-203 `resFromKeygen`. -/
def resFromKeygen (res : MpcResult) : MpcResult := ⟨res.ok, res.err⟩

/-- eddsa.go:205-211 `execResFromOnsign`. -/
def execResFromOnsign (res : MpcExecResult) : MpcExecResult := ⟨res.ok, res.err, res.data⟩

/-- eddsa.go:213-218 `resFromOnsign`. -/
def resFromOnsign (res : MpcResult) : MpcResult := ⟨res.ok, res.err⟩

/-- A call with its result record and the new registries. -/
abbrev ExecCall := Option MpcExecResult × World
@[inherit_doc ExecCall] abbrev Call := Option MpcResult × World

/-- Frame of a keygen call that returns data: only the keygen registry is in scope. -/
def onKgExec (w : World) (q : Res Keygen.Err Bytes × Keygen.Reg) : ExecCall :=
  ((kgExec q.1).map execResFromKeygen, { w with kg := q.2 })

/-- Frame of a keygen call without data. -/
def onKg (w : World) (q : Res Keygen.Err Unit × Keygen.Reg) : Call :=
  ((kgRes q.1).map resFromKeygen, { w with kg := q.2 })

/-- Frame of a signing call that returns data. -/
def onSgExec (w : World) (q : Res Onsign.Err Bytes × Onsign.Reg) : ExecCall :=
  ((sgExec q.1).map execResFromOnsign, { w with sg := q.2 })

/-- Frame of a signing call without data. -/
def onSg (w : World) (q : Res Onsign.Err Unit × Onsign.Reg) : Call :=
  ((sgRes q.1).map resFromOnsign, { w with sg := q.2 })

/-- eddsa.go:36-46. -/
def NewKeygenLocalParty (w : World) (key : Bytes) (partyIndex partyCount : Int) (pIDs rootPrivKey : Bytes) : Call :=
  onKg w (Keygen.NewLocalParty w.kg key partyIndex partyCount (split 44 pIDs) rootPrivKey)

/-- eddsa.go:48-50. -/
def RemoveKeygenParty (w : World) (key : Bytes) : Bool × World :=
  let q := Keygen.RemoveParty w.kg key
  (q.1, { w with kg := q.2 })

/-- eddsa.go:53-56. -/
def SaveChainCodes (w : World) (key chainCodes : Bytes) : Call := onKg w (Keygen.SaveChainCodes w.kg key chainCodes)

/-- eddsa.go:58-61. -/
def KeygenRound1Exec (e : Env) (rnd : Keygen.Rand1) (w : World) (key : Bytes) : ExecCall :=
  onKgExec w (Keygen.KeygenRound1Exec e.kg rnd w.kg key)

/-- eddsa.go:63-66. -/
def KeygenRound1Accept (w : World) (key : Bytes) (frm : Int) (msg : Bytes) : Call :=
  onKg w (Keygen.KeygenRound1Accept w.kg key frm msg)

/-- eddsa.go:68-71. -/
def KeygenRound1Finish (w : World) (key : Bytes) : Call := onKg w (Keygen.KeygenRound1Finish w.kg key)

/-- eddsa.go:73-76. -/
def KeygenRound2Exec (w : World) (key : Bytes) : ExecCall := onKgExec w (Keygen.KeygenRound2Exec w.kg key)

/-- eddsa.go:78-81. -/
def KeygenRound2Accept (w : World) (key : Bytes) (frm : Int) (msg : Bytes) : Call :=
  onKg w (Keygen.KeygenRound2Accept w.kg key frm msg)

/-- eddsa.go:83-86. -/
def KeygenRound2Finish (w : World) (key : Bytes) : Call := onKg w (Keygen.KeygenRound2Finish w.kg key)

/-- eddsa.go:88-91. -/
def KeygenRound3Exec (e : Env) (w : World) (key : Bytes) : ExecCall := onKgExec w (Keygen.KeygenRound3Exec e.kg w.kg key)

/-- eddsa.go:93-96. -/
def KeygenRound3Accept (w : World) (key : Bytes) (frm : Int) (msg : Bytes) : Call :=
  onKg w (Keygen.KeygenRound3Accept w.kg key frm msg)

/-- eddsa.go:98-101. -/
def KeygenRound3Finish (w : World) (key : Bytes) : Call := onKg w (Keygen.KeygenRound3Finish w.kg key)

/-- eddsa.go:104-107. -/
def KeygenRound4Exec (e : Env) (w : World) (key : Bytes) : ExecCall := onKgExec w (Keygen.KeygenRound4Exec e.kg w.kg key)

/-- eddsa.go:111-124. -/
def NewSignLocalParty (e : Env) (w : World) (key : Bytes) (partyIndex partyCount : Int)
    (pIDs msg keyData refreshData walletPath : Bytes) : Call :=
  onSg w (Onsign.NewLocalParty e.sg w.sg key {
    partyIndex := partyIndex
    partyCount := partyCount
    pIDs := split 44 pIDs
    msg := msg
    keyData := keyData
    refresh := refreshData
    path := walletPath })

/-- eddsa.go:126-128. -/
def RemoveSignParty (w : World) (key : Bytes) : Bool × World :=
  let q := Onsign.RemoveSignParty w.sg key
  (q.1, { w with sg := q.2 })

/-- eddsa.go:130-133. -/
def OnSignRound1Exec (e : Env) (rnd : Onsign.Rand1) (w : World) (key : Bytes) : ExecCall :=
  onSgExec w (Onsign.OnSignRound1Exec e.sg rnd w.sg key)

/-- eddsa.go:135-138. -/
def GetOnSignRound1Msg (w : World) (key : Bytes) (to : Int) : ExecCall := onSgExec w (Onsign.GetRound1Msg2 w.sg key to)

/-- eddsa.go:140-143. -/
def OnSignRound1MsgAccept (w : World) (key : Bytes) (frm : Int) (msg : Bytes) : Call :=
  onSg w (Onsign.OnSignRound1MsgAccept w.sg key frm msg)

/-- eddsa.go:145-148. -/
def OnSignRound1Finish (w : World) (key : Bytes) : Call := onSg w (Onsign.OnSignRound1Finish w.sg key)

/-- eddsa.go:150-153. -/
def OnSignRound2Exec (e : Env) (draws : Nat → RangeProofs.Draws) (w : World) (key : Bytes) : Call :=
  onSg w (Onsign.OnsignRound2Exec e.sg draws w.sg key)

/-- eddsa.go:155-158. -/
def GetOnSignRound2Msg (w : World) (key : Bytes) (to : Int) : ExecCall := onSgExec w (Onsign.GetRound2Msg w.sg key to)

/-- eddsa.go:160-163. -/
def OnSignRound2MsgAccept (w : World) (key : Bytes) (frm : Int) (msg : Bytes) : Call :=
  onSg w (Onsign.OnSignRound2MsgAccept w.sg key frm msg)

/-- eddsa.go:165-168. -/
def OnSignRound2Finish (w : World) (key : Bytes) : Call := onSg w (Onsign.OnSignRound2Finish w.sg key)

/-- eddsa.go:170-173. -/
def OnSignRound3Exec (e : Env) (zs : Nat → Int) (w : World) (key : Bytes) : ExecCall :=
  onSgExec w (Onsign.OnsignRound3Exec e.sg zs w.sg key)

/-- eddsa.go:175-178. -/
def OnSignRound3MsgAccept (w : World) (key : Bytes) (frm : Int) (msg : Bytes) : Call :=
  onSg w (Onsign.OnSignRound3MsgAccept w.sg key frm msg)

/-- eddsa.go:180-183. -/
def OnSignRound3Finish (w : World) (key : Bytes) : Call := onSg w (Onsign.OnSignRound3Finish w.sg key)

/-- eddsa.go:185-188. -/
def OnSignFinalExec (e : Env) (w : World) (key : Bytes) : ExecCall := onSgExec w (Onsign.OnsignFinalExec e.sg w.sg key)

/-- One call of the exported surface with its arguments and random draws. -/
inductive Op where
  | newKeygen (key : Bytes) (partyIndex partyCount : Int) (pIDs rootPrivKey : Bytes)
  | removeKeygen (key : Bytes)
  | saveChainCodes (key chainCodes : Bytes)
  | keygen1Exec (key : Bytes) (rnd : Keygen.Rand1)
  | keygen1Accept (key : Bytes) (frm : Int) (msg : Bytes)
  | keygen1Finish (key : Bytes)
  | keygen2Exec (key : Bytes)
  | keygen2Accept (key : Bytes) (frm : Int) (msg : Bytes)
  | keygen2Finish (key : Bytes)
  | keygen3Exec (key : Bytes)
  | keygen3Accept (key : Bytes) (frm : Int) (msg : Bytes)
  | keygen3Finish (key : Bytes)
  | keygen4Exec (key : Bytes)
  | newSign (key : Bytes) (partyIndex partyCount : Int) (pIDs msg keyData refreshData walletPath : Bytes)
  | removeSign (key : Bytes)
  | sign1Exec (key : Bytes) (rnd : Onsign.Rand1)
  | getSign1 (key : Bytes) (to : Int)
  | sign1Accept (key : Bytes) (frm : Int) (msg : Bytes)
  | sign1Finish (key : Bytes)
  | sign2Exec (key : Bytes) (draws : Nat → RangeProofs.Draws)
  | getSign2 (key : Bytes) (to : Int)
  | sign2Accept (key : Bytes) (frm : Int) (msg : Bytes)
  | sign2Finish (key : Bytes)
  | sign3Exec (key : Bytes) (zs : Nat → Int)
  | sign3Accept (key : Bytes) (frm : Int) (msg : Bytes)
  | sign3Finish (key : Bytes)
  | signFinal (key : Bytes)

/-- What a call gives its caller; `none` is a crash. -/
inductive Out where
  | exec (r : Option MpcExecResult)
  | plain (r : Option MpcResult)
  | bool (b : Bool)
  deriving DecidableEq

/-- Dispatch. -/
def Op.run (e : Env) (w : World) : Op → Out × World
  | .newKeygen k i n ids root => let q := NewKeygenLocalParty w k i n ids root; (.plain q.1, q.2)
  | .removeKeygen k => let q := RemoveKeygenParty w k; (.bool q.1, q.2)
  | .saveChainCodes k c => let q := SaveChainCodes w k c; (.plain q.1, q.2)
  | .keygen1Exec k rnd => let q := KeygenRound1Exec e rnd w k; (.exec q.1, q.2)
  | .keygen1Accept k f m => let q := KeygenRound1Accept w k f m; (.plain q.1, q.2)
  | .keygen1Finish k => let q := KeygenRound1Finish w k; (.plain q.1, q.2)
  | .keygen2Exec k => let q := KeygenRound2Exec w k; (.exec q.1, q.2)
  | .keygen2Accept k f m => let q := KeygenRound2Accept w k f m; (.plain q.1, q.2)
  | .keygen2Finish k => let q := KeygenRound2Finish w k; (.plain q.1, q.2)
  | .keygen3Exec k => let q := KeygenRound3Exec e w k; (.exec q.1, q.2)
  | .keygen3Accept k f m => let q := KeygenRound3Accept w k f m; (.plain q.1, q.2)
  | .keygen3Finish k => let q := KeygenRound3Finish w k; (.plain q.1, q.2)
  | .keygen4Exec k => let q := KeygenRound4Exec e w k; (.exec q.1, q.2)
  | .newSign k i n ids m kd rd p => let q := NewSignLocalParty e w k i n ids m kd rd p; (.plain q.1, q.2)
  | .removeSign k => let q := RemoveSignParty w k; (.bool q.1, q.2)
  | .sign1Exec k rnd => let q := OnSignRound1Exec e rnd w k; (.exec q.1, q.2)
  | .getSign1 k t => let q := GetOnSignRound1Msg w k t; (.exec q.1, q.2)
  | .sign1Accept k f m => let q := OnSignRound1MsgAccept w k f m; (.plain q.1, q.2)
  | .sign1Finish k => let q := OnSignRound1Finish w k; (.plain q.1, q.2)
  | .sign2Exec k d => let q := OnSignRound2Exec e d w k; (.plain q.1, q.2)
  | .getSign2 k t => let q := GetOnSignRound2Msg w k t; (.exec q.1, q.2)
  | .sign2Accept k f m => let q := OnSignRound2MsgAccept w k f m; (.plain q.1, q.2)
  | .sign2Finish k => let q := OnSignRound2Finish w k; (.plain q.1, q.2)
  | .sign3Exec k z => let q := OnSignRound3Exec e z w k; (.exec q.1, q.2)
  | .sign3Accept k f m => let q := OnSignRound3MsgAccept w k f m; (.plain q.1, q.2)
  | .sign3Finish k => let q := OnSignRound3Finish w k; (.plain q.1, q.2)
  | .signFinal k => let q := OnSignFinalExec e w k; (.exec q.1, q.2)

/-- The process after a history of calls of the exported surface, started with empty registries. -/
inductive Reach (e : Env) : World → Prop where
  | init : Reach e ⟨fun _ => none, fun _ => none⟩
  | step {w : World} (op : Op) : Reach e w → Reach e (op.run e w).2

end Tss.Api
