import Verif.Model.KeygenOps
/-
Honest key generation: `n` parties in one registry (or, equivalently, in separate processes: they use
different keys), each driven by the exported calls only, over a network that delivers what the calls
returned, in any order, any number of times.
-/
namespace Tss.Keygen
open Tss Text Wire

/-- Inputs of one key generation: registry keys, the list of party ids, the root keys and draws. -/
structure Session where
  n : Nat
  key : Nat → Bytes
  pIDs : List Bytes
  root : Nat → Bytes
  rnd : Nat → Rand1

/-- Registry plus what the clients remember: `stage i` is 0 before party `i` was created and `k + 1` after
its rounds 1..k were executed, `sent` what its round calls returned, `got rd i j` whether `j`'s message
of round `rd` was handed to `i`, `final` what round 4 returned. -/
structure Net where
  reg : Reg
  stage : Nat → Nat
  sent : Round → Nat → Option Bytes
  got : Round → Nat → Nat → Bool
  final : Nat → Option Bytes

/-- Number of a message round. -/
def Round.num : Round → Nat
  | .one => 1 | .two => 2 | .three => 3

/-- The exported call of a message round. -/
def Round.exec (e : Env) (rnd : Rand1) : Round → Reg → Bytes → Res Err Bytes × Reg
  | .one => KeygenRound1Exec e rnd
  | .two => KeygenRound2Exec
  | .three => KeygenRound3Exec e

/-- The data of a result, if Ok. -/
def Res.data {α : Type} : Res Err α → Option α
  | .ok a => some a
  | _ => none

/-- All messages of the previous round have been handed over. -/
def Net.ready (S : Session) (s : Net) (i : Nat) (k : Nat) : Prop :=
  ∀ rd : Round, rd.num + 1 = k → ∀ j, j < S.n → j ≠ i → s.got rd i j = true

/-- One step; the label is what the exported call returned. -/
inductive Step (e : Env) (S : Session) : Net → Res Err Bytes → Net → Prop where
  /-- create party `i` (eddsa.go NewKeygenLocalParty) -/
  | create (s : Net) (i : Nat) (hi : i < S.n) (h : s.stage i = 0) (q : Res Err Unit × Reg)
      (hq : q = NewLocalParty s.reg (S.key i) i S.n S.pIDs (S.root i)) :
      Step e S s (noData q.1) { s with reg := q.2, stage := fun j => if j = i then 1 else s.stage j }
  /-- run message round `rd` of party `i`, once, after the messages of the previous round arrived -/
  | exec (s : Net) (rd : Round) (i : Nat) (hi : i < S.n) (h : s.stage i = rd.num) (hr : s.ready S i rd.num)
      (q : Res Err Bytes × Reg) (hq : q = rd.exec e (S.rnd i) s.reg (S.key i)) :
      Step e S s q.1 { s with
        reg := q.2
        stage := fun j => if j = i then rd.num + 1 else s.stage j
        sent := fun rd' j => if rd' = rd ∧ j = i then Res.data q.1 else s.sent rd' j }
  /-- run round 4 of party `i`, once -/
  | exec4 (s : Net) (i : Nat) (hi : i < S.n) (h : s.stage i = 4) (hr : s.ready S i 4)
      (q : Res Err Bytes × Reg) (hq : q = KeygenRound4Exec e s.reg (S.key i)) :
      Step e S s q.1 { s with
        reg := q.2
        stage := fun j => if j = i then 5 else s.stage j
        final := fun j => if j = i then Res.data q.1 else s.final j }
  /-- hand `j`'s message of round `rd` to party `i` (any time after it was sent, any number of times) -/
  | deliver (s : Net) (rd : Round) (i j : Nat) (hi : i < S.n) (hj : j < S.n) (h : 1 ≤ s.stage i) (w : Bytes)
      (hw : s.sent rd j = some w) (q : Res Err Unit × Reg)
      (hq : q = rd.accept s.reg (S.key i) j (b64Encode w)) :
      Step e S s (noData q.1) { s with
        reg := q.2
        got := fun rd' i' j' => if rd' = rd ∧ i' = i ∧ j' = j then true else s.got rd' i' j' }

/-- Environment moves that may happen at any time: chain codes of a created party (any outcome), finish
polling, and any call on any other key. -/
inductive Noise (e : Env) (S : Session) : Net → Net → Prop where
  | chain (s : Net) (i : Nat) (hi : i < S.n) (codes : Bytes) :
      Noise e S s { s with reg := (SaveChainCodes s.reg (S.key i) codes).2 }
  | poll (s : Net) (rd : Round) (i : Nat) (hi : i < S.n) : Noise e S s { s with reg := (rd.finish s.reg (S.key i)).2 }
  | other (s : Net) (op : Op) (h : ∀ i, i < S.n → op.key ≠ S.key i) : Noise e S s { s with reg := (op.run e s.reg).2 }

/-- Reachable from an arbitrary registry in which nothing of this session has happened. -/
inductive Run (e : Env) (S : Session) : Net → Prop where
  | init (r : Reg) : Run e S ⟨r, fun _ => 0, fun _ _ => none, fun _ _ _ => false, fun _ => none⟩
  | step {s s' : Net} {out : Res Err Bytes} : Run e S s → Step e S s out s' → Run e S s'
  | noise {s s' : Net} : Run e S s → Noise e S s s' → Run e S s'

/-- Any number of steps. -/
inductive Steps (e : Env) (S : Session) : Net → Net → Prop where
  | refl (s : Net) : Steps e S s s
  | head {s s1 s2 : Net} {out : Res Err Bytes} : Step e S s out s1 → Steps e S s1 s2 → Steps e S s s2

end Tss.Keygen
