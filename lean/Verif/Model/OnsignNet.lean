import Verif.Model.OnsignOps
/-
Honest signing: `n` parties in one registry (or, equivalently, in separate processes: they use different keys), each
driven by the exported calls only, over a network that delivers what the calls returned, in any order, any number of
times.
-/
namespace Tss.Onsign
open Tss Text Wire RangeProofs

/-- Inputs of one signing session: registry keys, creation arguments, the random draws of rounds 1, 2 and 3. -/
structure Session where
  n : Nat
  key : Nat → Bytes
  args : Nat → NewArgs
  rnd : Nat → Rand1
  draws : Nat → Nat → Draws
  zs : Nat → Nat → Int

/-- The four message types: round-1 broadcast (ciphertext), round-1 message to one party (proof), round-2 message to one
party, round-3 broadcast. -/
inductive Mk where
  | a | b | two | three
  deriving DecidableEq

/-- Registry plus what the clients remember: `stage i` is 0 before party `i` was created and `k + 1` after its rounds
1..k were executed (5 after the final call), `sent mk j i` what the client of `j` holds for `i`, `got mk i j` whether
`j`'s message was handed to `i`, `final` what the final call returned. -/
structure Net where
  reg : Reg
  stage : Nat → Nat
  sent : Mk → Nat → Nat → Option Bytes
  got : Mk → Nat → Nat → Bool
  final : Nat → Option Bytes

/-- The data of a result, if Ok. -/
def dataOf {α : Type} : Res Err α → Option α
  | .ok a => some a
  | _ => none

/-- The accept call for a message type. -/
def Mk.accept : Mk → Reg → Bytes → Int → Bytes → Res Err Unit × Reg
  | .a => OnSignRound1MsgAccept
  | .b => OnSignRound1MsgAccept
  | .two => OnSignRound2MsgAccept
  | .three => OnSignRound3MsgAccept

/-- All messages of a type have been handed to `i`. -/
def Net.all (S : Session) (s : Net) (mk : Mk) (i : Nat) : Prop := ∀ j, j < S.n → j ≠ i → s.got mk i j = true

/-- Replace the value at one index. -/
def upd {α : Type} (f : Nat → α) (i : Nat) (v : α) : Nat → α := fun j => if j = i then v else f j

/-- One step; the label is what the exported call returned. -/
inductive Step (e : Env) (S : Session) : Net → Res Err Bytes → Net → Prop where
  /-- create party `i` -/
  | create (s : Net) (i : Nat) (hi : i < S.n) (h : s.stage i = 0) (q : Res Err Unit × Reg)
      (hq : q = NewLocalParty e s.reg (S.key i) (S.args i)) :
      Step e S s (noData q.1) { s with reg := q.2, stage := upd s.stage i 1 }
  /-- run round 1 of party `i`, once -/
  | exec1 (s : Net) (i : Nat) (hi : i < S.n) (h : s.stage i = 1) (q : Res Err Bytes × Reg)
      (hq : q = OnSignRound1Exec e (S.rnd i) s.reg (S.key i)) :
      Step e S s q.1 { s with
        reg := q.2
        stage := upd s.stage i 2
        sent := fun mk j to => if mk = .a ∧ j = i then dataOf q.1 else s.sent mk j to }
  /-- run round 2 of party `i`, once, after both round-1 messages of every peer arrived -/
  | exec2 (s : Net) (i : Nat) (hi : i < S.n) (h : s.stage i = 2) (ha : s.all S .a i) (hb : s.all S .b i)
      (q : Res Err Unit × Reg) (hq : q = OnsignRound2Exec e (S.draws i) s.reg (S.key i)) :
      Step e S s (noData q.1) { s with reg := q.2, stage := upd s.stage i 3 }
  /-- run round 3 of party `i`, once, after the round-2 messages arrived -/
  | exec3 (s : Net) (i : Nat) (hi : i < S.n) (h : s.stage i = 3) (hr : s.all S .two i) (q : Res Err Bytes × Reg)
      (hq : q = OnsignRound3Exec e (S.zs i) s.reg (S.key i)) :
      Step e S s q.1 { s with
        reg := q.2
        stage := upd s.stage i 4
        sent := fun mk j to => if mk = .three ∧ j = i then dataOf q.1 else s.sent mk j to }
  /-- the final call of party `i`, once, after the round-3 messages arrived -/
  | final (s : Net) (i : Nat) (hi : i < S.n) (h : s.stage i = 4) (hr : s.all S .three i) (q : Res Err Bytes × Reg)
      (hq : q = OnsignFinalExec e s.reg (S.key i)) :
      Step e S s q.1 { s with reg := q.2, stage := upd s.stage i 5, final := upd s.final i (dataOf q.1) }
  /-- the client of `j` fetches its round-1 proof for `i`, any time after round 1 -/
  | fetch1 (s : Net) (i j : Nat) (hi : i < S.n) (hj : j < S.n) (h : 2 ≤ s.stage j) (q : Res Err Bytes × Reg)
      (hq : q = GetRound1Msg2 s.reg (S.key j) i) :
      Step e S s q.1 { s with
        reg := q.2
        sent := fun mk j' to => if mk = .b ∧ j' = j ∧ to = i then dataOf q.1 else s.sent mk j' to }
  /-- the client of `j` fetches its round-2 message for `i`, any time after round 2 -/
  | fetch2 (s : Net) (i j : Nat) (hi : i < S.n) (hj : j < S.n) (h : 3 ≤ s.stage j) (q : Res Err Bytes × Reg)
      (hq : q = GetRound2Msg s.reg (S.key j) i) :
      Step e S s q.1 { s with
        reg := q.2
        sent := fun mk j' to => if mk = .two ∧ j' = j ∧ to = i then dataOf q.1 else s.sent mk j' to }
  /-- hand `j`'s message to party `i` (any time after it was sent and `i` was created, any number of times) -/
  | deliver (s : Net) (mk : Mk) (i j : Nat) (hi : i < S.n) (hj : j < S.n) (h : 1 ≤ s.stage i) (w : Bytes)
      (hw : s.sent mk j i = some w) (q : Res Err Unit × Reg)
      (hq : q = mk.accept s.reg (S.key i) j (b64Encode w)) :
      Step e S s (noData q.1) { s with
        reg := q.2
        got := fun mk' i' j' => if mk' = mk ∧ i' = i ∧ j' = j then true else s.got mk' i' j' }

/-- Calls that only read. -/
def Op.isPoll : Op → Bool
  | .fin1 _ => true
  | .fin2 _ => true
  | .fin3 _ => true
  | .get1 _ _ => true
  | .get2 _ _ => true
  | _ => false

/-- Environment moves that may happen at any time: finish polling and fetching with any arguments, and any call on any
other key. -/
inductive Noise (e : Env) (S : Session) : Net → Net → Prop where
  | poll (s : Net) (op : Op) (h : op.isPoll = true) : Noise e S s { s with reg := (op.run e s.reg).2 }
  | other (s : Net) (op : Op) (h : ∀ i, i < S.n → op.key ≠ S.key i) : Noise e S s { s with reg := (op.run e s.reg).2 }

/-- Reachable from an arbitrary registry in which nothing of this session has happened. -/
inductive Run (e : Env) (S : Session) : Net → Prop where
  | init (r : Reg) : Run e S ⟨r, fun _ => 0, fun _ _ _ => none, fun _ _ _ => false, fun _ => none⟩
  | step {s s' : Net} {out : Res Err Bytes} : Run e S s → Step e S s out s' → Run e S s'
  | noise {s s' : Net} : Run e S s → Noise e S s s' → Run e S s'

/-- Any number of steps. -/
inductive Steps (e : Env) (S : Session) : Net → Net → Prop where
  | refl (s : Net) : Steps e S s s
  | head {s s1 s2 : Net} {out : Res Err Bytes} : Step e S s out s1 → Steps e S s1 s2 → Steps e S s s2

end Tss.Onsign
