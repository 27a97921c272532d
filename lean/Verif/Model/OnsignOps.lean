import Verif.Model.Onsign
import Verif.Model.KeygenOps
/-
Histories of exported signing calls, and of signing and key-generation calls mixed: any client may issue any of them,
in any order, with any arguments (and random draws).
-/
namespace Tss.Onsign
open Tss Text Wire RangeProofs

/-- One exported call with its arguments and random draws. -/
inductive Op where
  | new (key : Bytes) (a : NewArgs)
  | remove (key : Bytes)
  | exec1 (key : Bytes) (rnd : Rand1)
  | get1 (key : Bytes) (to : Int)
  | acc1 (key : Bytes) (frm : Int) (msg : Bytes)
  | fin1 (key : Bytes)
  | exec2 (key : Bytes) (draws : Nat → Draws)
  | get2 (key : Bytes) (to : Int)
  | acc2 (key : Bytes) (frm : Int) (msg : Bytes)
  | fin2 (key : Bytes)
  | exec3 (key : Bytes) (zs : Nat → Int)
  | acc3 (key : Bytes) (frm : Int) (msg : Bytes)
  | fin3 (key : Bytes)
  | final (key : Bytes)

/-- The key argument of a call. -/
def Op.key : Op → Bytes
  | .new k _ => k | .remove k => k | .exec1 k _ => k | .get1 k _ => k | .acc1 k _ _ => k | .fin1 k => k
  | .exec2 k _ => k | .get2 k _ => k | .acc2 k _ _ => k | .fin2 k => k | .exec3 k _ => k | .acc3 k _ _ => k
  | .fin3 k => k | .final k => k

/-- What a call returns: a result record, or the boolean of `RemoveSignParty`. -/
inductive Out where
  | res (r : Res Err Bytes)
  | bool (b : Bool)
  deriving DecidableEq

/-- A result without data. -/
def noData : Res Err Unit → Res Err Bytes
  | .ok _ => .ok []
  | .err e => .err e
  | .panic => .panic

/-- Run one call. -/
def Op.run (e : Env) : Op → Reg → Out × Reg
  | .new k a, r => let q := NewLocalParty e r k a; (.res (noData q.1), q.2)
  | .remove k, r => let q := RemoveSignParty r k; (.bool q.1, q.2)
  | .exec1 k rnd, r => let q := OnSignRound1Exec e rnd r k; (.res q.1, q.2)
  | .get1 k t, r => let q := GetRound1Msg2 r k t; (.res q.1, q.2)
  | .acc1 k f m, r => let q := OnSignRound1MsgAccept r k f m; (.res (noData q.1), q.2)
  | .fin1 k, r => let q := OnSignRound1Finish r k; (.res (noData q.1), q.2)
  | .exec2 k d, r => let q := OnsignRound2Exec e d r k; (.res (noData q.1), q.2)
  | .get2 k t, r => let q := GetRound2Msg r k t; (.res q.1, q.2)
  | .acc2 k f m, r => let q := OnSignRound2MsgAccept r k f m; (.res (noData q.1), q.2)
  | .fin2 k, r => let q := OnSignRound2Finish r k; (.res (noData q.1), q.2)
  | .exec3 k z, r => let q := OnsignRound3Exec e z r k; (.res q.1, q.2)
  | .acc3 k f m, r => let q := OnSignRound3MsgAccept r k f m; (.res (noData q.1), q.2)
  | .fin3 k, r => let q := OnSignRound3Finish r k; (.res (noData q.1), q.2)
  | .final k, r => let q := OnsignFinalExec e r k; (.res q.1, q.2)

/-- States reachable from the empty registry by any history of calls (also past panics). -/
inductive Reach (e : Env) : Reg → Prop where
  | init : Reach e (fun _ => none)
  | step {r : Reg} (op : Op) : Reach e r → Reach e (op.run e r).2

end Tss.Onsign

namespace Tss.World
open Tss

/-- The process: the two package-level registries `Parties` (eddsacmp/keygen/local_party.go:67) and `SignParties`
(eddsacmp/onsign/local_party.go:77). -/
structure World where
  kg : Keygen.Reg
  sg : Onsign.Reg

/-- The environments of the two packages. -/
structure Env where
  kg : Keygen.Env
  sg : Onsign.Env

/-- An exported call of either package. -/
inductive Op where
  | kg (op : Keygen.Op)
  | sg (op : Onsign.Op)

/-- What it returns. -/
inductive Out where
  | kg (o : Keygen.Out)
  | sg (o : Onsign.Out)
  deriving DecidableEq

/-- Its key argument. -/
def Op.key : Op → Bytes
  | .kg op => op.key
  | .sg op => op.key

/-- Run it: each package only has its own registry in scope. -/
def Op.run (e : Env) : Op → World → Out × World
  | .kg op, w => let q := op.run e.kg w.kg; (.kg q.1, { w with kg := q.2 })
  | .sg op, w => let q := op.run e.sg w.sg; (.sg q.1, { w with sg := q.2 })

/-- Run a history of calls; the calls may come from any number of clients, the list is the order in which the
process serves them. -/
def runAll (e : Env) : List Op → World → World
  | [], w => w
  | op :: t, w => runAll e t (op.run e w).2

end Tss.World
