import Verif.Model.KeygenOps
import Verif.Model.OnsignOps
/-
Calls of the exported functions made at the same time. The package-level maps `Parties` (eddsacmp/keygen/local_party.go:67) and
`SignParties` (eddsacmp/onsign/local_party.go:77) are plain Go maps without a lock, and hold pointers: a call looks its party up once, at
its beginning (e.g. eddsacmp/keygen/round_1.go:32), and from then on works on the object it found, whatever happens to the map.
Simplifications: a map access is atomic in its effect but takes time, so that two of them can overlap; a call works on its object in
atomic steps, any number of them; the log output and the assignment of the same curve to the global in tss/curve.go:70 are left out; a panic is a
way to return.
-/
namespace Tss.Calls
open Tss

/-- What one exported call does. `L` are its local variables, `P` the party objects, `R` what calls return. -/
inductive Code (L P R : Type) where
  /-- eddsacmp/keygen/local_party.go:70-124, eddsacmp/onsign/local_party.go:80-211 `NewLocalParty`: build an object (none: the arguments are
  refused), then `Parties[key] = p`. -/
  | create (obj : Option P) (ret : R)
  /-- eddsacmp/keygen/local_party.go:158-164 `RemoveParty`, eddsacmp/onsign/local_party.go:213-219 `RemoveSignParty`: look up; if there, delete. -/
  | remove (yes no : R)
  /-- All others: look up; "party not found" if absent; otherwise the steps on the object found, at least one. -/
  | use (miss : R) (l0 : L) (first : L × P → L × P) (more : List (L × P → L × P)) (ret : L → R)

/-- A call: the key argument and the code. -/
structure Call (L P R : Type) where
  key : Bytes
  code : Code L P R

/-- Where a call is. -/
inductive Pc (L P R : Type) where
  | ready
  /-- in the map lookup -/
  | reading
  /-- RemoveParty has seen the entry -/
  | found
  /-- in the map assignment or deletion -/
  | writing
  /-- about to do step `f` on the object, then `rest` -/
  | body (ref : Nat) (l : L) (f : L × P → L × P) (rest : List (L × P → L × P))
  | done (r : R)

/-- The process: the map (to objects), the objects, how many there are, and the calls made so far. -/
structure St (L P R : Type) where
  map : Bytes → Option Nat
  heap : Nat → P
  next : Nat
  thr : Nat → Option (Call L P R × Pc L P R)

variable {L P R : Type}

/-- Call `i` moves on. -/
def St.put (s : St L P R) (i : Nat) (c : Call L P R) (pc : Pc L P R) : St L P R :=
  { s with thr := fun j => if j = i then some (c, pc) else s.thr j }

/-- Map assignment (some) or deletion (none). -/
def St.assign (s : St L P R) (k : Bytes) (v : Option Nat) : St L P R := { s with map := fun j => if j = k then v else s.map j }

/-- Write the object at `ref`. -/
def St.store (s : St L P R) (ref : Nat) (p : P) : St L P R := { s with heap := fun j => if j = ref then p else s.heap j }

/-- One step of call `i`; the last argument is what it returns in this step, if it does. -/
inductive Step (i : Nat) : St L P R → St L P R → Option R → Prop
  | refused {s k r} : s.thr i = some (⟨k, .create none r⟩, .ready) → Step i s (s.put i ⟨k, .create none r⟩ (.done r)) (some r)
  | assign {s k p r} : s.thr i = some (⟨k, .create (some p) r⟩, .ready) → Step i s (s.put i ⟨k, .create (some p) r⟩ .writing) none
  | assigned {s k p r} : s.thr i = some (⟨k, .create (some p) r⟩, .writing) →
      Step i s ({ (s.store s.next p).assign k (some s.next) with next := s.next + 1 }.put i ⟨k, .create (some p) r⟩ (.done r)) (some r)
  | lookupR {s k y n} : s.thr i = some (⟨k, .remove y n⟩, .ready) → Step i s (s.put i ⟨k, .remove y n⟩ .reading) none
  | absent {s k y n} : s.thr i = some (⟨k, .remove y n⟩, .reading) → s.map k = none →
      Step i s (s.put i ⟨k, .remove y n⟩ (.done n)) (some n)
  | present {s k y n ref} : s.thr i = some (⟨k, .remove y n⟩, .reading) → s.map k = some ref →
      Step i s (s.put i ⟨k, .remove y n⟩ .found) none
  | delete {s k y n} : s.thr i = some (⟨k, .remove y n⟩, .found) → Step i s (s.put i ⟨k, .remove y n⟩ .writing) none
  | deleted {s k y n} : s.thr i = some (⟨k, .remove y n⟩, .writing) →
      Step i s ((s.assign k none).put i ⟨k, .remove y n⟩ (.done y)) (some y)
  | lookupU {s k m l0 f more ret} : s.thr i = some (⟨k, .use m l0 f more ret⟩, .ready) →
      Step i s (s.put i ⟨k, .use m l0 f more ret⟩ .reading) none
  | miss {s k m l0 f more ret} : s.thr i = some (⟨k, .use m l0 f more ret⟩, .reading) → s.map k = none →
      Step i s (s.put i ⟨k, .use m l0 f more ret⟩ (.done m)) (some m)
  | hit {s k m l0 f more ret ref} : s.thr i = some (⟨k, .use m l0 f more ret⟩, .reading) → s.map k = some ref →
      Step i s (s.put i ⟨k, .use m l0 f more ret⟩ (.body ref l0 f more)) none
  | work {s k m l0 f more ret ref l g g' rest} : s.thr i = some (⟨k, .use m l0 f more ret⟩, .body ref l g (g' :: rest)) →
      Step i s ((s.store ref (g (l, s.heap ref)).2).put i ⟨k, .use m l0 f more ret⟩ (.body ref (g (l, s.heap ref)).1 g' rest)) none
  | last {s k m l0 f more ret ref l g} : s.thr i = some (⟨k, .use m l0 f more ret⟩, .body ref l g []) →
      Step i s ((s.store ref (g (l, s.heap ref)).2).put i ⟨k, .use m l0 f more ret⟩ (.done (ret (g (l, s.heap ref)).1)))
        (some (ret (g (l, s.heap ref)).1))

/-- Every run from the start of the process, with the calls that returned, in order, and what they returned. `allow i s c`: the callers
may make the call c, as number i, in state s. -/
inductive Run (allow : Nat → St L P R → Call L P R → Prop) (h0 : Nat → P) : List (Nat × R) → St L P R → Prop
  | init : Run allow h0 [] ⟨fun _ => none, h0, 0, fun _ => none⟩
  | call {h s} (i : Nat) (c : Call L P R) : Run allow h0 h s → s.thr i = none → allow i s c → Run allow h0 h (s.put i c .ready)
  | step {h s s'} (i : Nat) : Run allow h0 h s → Step i s s' none → Run allow h0 h s'
  | ret {h s s' r} (i : Nat) : Run allow h0 h s → Step i s s' (some r) → Run allow h0 (h ++ [(i, r)]) s'

end Tss.Calls
