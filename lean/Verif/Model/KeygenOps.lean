import Verif.Model.Keygen
/-
Histories of exported key-generation calls: any client may issue any of them, in any order, with any
arguments (and random draws).
-/
namespace Tss.Keygen
open Tss Text Wire

/-- The three accept functions and their slots. -/
inductive Round where
  | one | two | three
  deriving DecidableEq

/-- The exported accept call of a round. -/
def Round.accept : Round → Reg → Bytes → Int → Bytes → Res Err Unit × Reg
  | .one => KeygenRound1Accept
  | .two => KeygenRound2Accept
  | .three => KeygenRound3Accept

/-- The exported finish call of a round. -/
def Round.finish : Round → Reg → Bytes → Res Err Unit × Reg
  | .one => KeygenRound1Finish
  | .two => KeygenRound2Finish
  | .three => KeygenRound3Finish

/-- The stored messages of a round. -/
def Round.msgs : Round → Party → List Bytes
  | .one, p => p.m1
  | .two, p => p.m2
  | .three, p => p.m3

/-- The message type of a round. -/
def Round.kind : Round → Kind
  | .one => .kg1
  | .two => .kg2
  | .three => .kg3

/-- One exported call with its arguments. -/
inductive Op where
  | new (key : Bytes) (idx cnt : Int) (pIDs : List Bytes) (root : Bytes)
  | saveChain (key codes : Bytes)
  | remove (key : Bytes)
  | exec1 (key : Bytes) (rnd : Rand1)
  | exec2 (key : Bytes)
  | exec3 (key : Bytes)
  | exec4 (key : Bytes)
  | acc (rd : Round) (key : Bytes) (frm : Int) (msg : Bytes)
  | fin (rd : Round) (key : Bytes)

/-- The key argument of a call. -/
def Op.key : Op → Bytes
  | .new k .. => k | .saveChain k _ => k | .remove k => k | .exec1 k _ => k | .exec2 k => k
  | .exec3 k => k | .exec4 k => k | .acc _ k _ _ => k | .fin _ k => k

/-- What a call returns: a result record, or the boolean of `RemoveParty`. -/
inductive Out where
  | res (r : Res Err Bytes)
  | bool (b : Bool)
  deriving DecidableEq

/-- A result without data. -/
def noData : Res Err Unit → Res Err Bytes
  | .ok _ => .ok []
  | .err e => .err e
  | .panic => .panic

/-- Run one call. -/
def Op.run (e : Env) : Op → Reg → Out × Reg
  | .new k i n ids root, r => let q := NewLocalParty r k i n ids root; (.res (noData q.1), q.2)
  | .saveChain k c, r => let q := SaveChainCodes r k c; (.res (noData q.1), q.2)
  | .remove k, r => let q := RemoveParty r k; (.bool q.1, q.2)
  | .exec1 k rnd, r => let q := KeygenRound1Exec e rnd r k; (.res q.1, q.2)
  | .exec2 k, r => let q := KeygenRound2Exec r k; (.res q.1, q.2)
  | .exec3 k, r => let q := KeygenRound3Exec e r k; (.res q.1, q.2)
  | .exec4 k, r => let q := KeygenRound4Exec e r k; (.res q.1, q.2)
  | .acc rd k f m, r => let q := rd.accept r k f m; (.res (noData q.1), q.2)
  | .fin rd k, r => let q := rd.finish r k; (.res (noData q.1), q.2)

/-- States reachable from the empty registry by any history of calls (also past panics). -/
inductive Reach (e : Env) : Reg → Prop where
  | init : Reach e (fun _ => none)
  | step {r : Reg} (op : Op) : Reach e r → Reach e (op.run e r).2

/-- Histories in which every accept call returned Ok. -/
inductive GoodReach (e : Env) : Reg → Prop where
  | init : GoodReach e (fun _ => none)
  | step {r : Reg} (op : Op) : GoodReach e r →
      (∀ rd k f m, op = .acc rd k f m → (op.run e r).1 = .res (.ok [])) → GoodReach e (op.run e r).2

end Tss.Keygen
