import Verif.Model.PartyID
/-
Model of /repo/tss/params.go, /repo/tss/peers.go and of the bookkeeping shared by the rounds
(/repo/eddsacmp/keygen/rounds.go, /repo/eddsacmp/onsign/rounds.go, which is the same text).
Lists of party ids are Go slices: a view of an array that other slices may share. Contexts are pointers.
The elliptic curve and the random sources of the parameters are opaque values.
-/
namespace Tss.Params
open Tss

/-- A slice of party ids starting at the beginning of its array; `cap` is the length of the array. -/
structure Slice where
  arr : Nat
  len : Nat
  cap : Nat
  deriving DecidableEq

/-- The memory: arrays of (possibly nil) party ids, the slice in each `PeerContext`, and the first unused array. -/
structure Heap where
  arrays : Nat → Nat → Option PartyID
  ctx : Nat → Slice
  fresh : Nat

/-- What a slice reads. -/
def Heap.read (h : Heap) (s : Slice) : List (Option PartyID) := (List.range s.len).map (h.arrays s.arr)

/-- peers.go:19-21 `IDs`. -/
def Heap.ids (h : Heap) (c : Nat) : List (Option PartyID) := h.read (h.ctx c)

/-- peers.go:23-25 `SetIDs`. -/
def Heap.setIDs (h : Heap) (c : Nat) (s : Slice) : Heap := { h with ctx := fun i => if i = c then s else h.ctx i }

/-- Go's `append(s, xs...)`: in place when the array has room, otherwise into a new array of the capacity `grow` chosen by the
runtime (at least the length needed). -/
def Heap.append (grow : Nat → Nat) (h : Heap) (s : Slice) (xs : List (Option PartyID)) : Slice × Heap :=
  let n := s.len + xs.length
  if n ≤ s.cap then
    (⟨s.arr, n, s.cap⟩,
      { h with arrays := fun a i => if a = s.arr ∧ s.len ≤ i ∧ i < n then xs.getD (i - s.len) none else h.arrays a i })
  else
    (⟨h.fresh, n, max n (grow n)⟩,
      { h with
        arrays := fun a i => if a = h.fresh then (h.read s ++ xs).getD i none else h.arrays a i
        fresh := h.fresh + 1 })

/-- params.go:18-28 `Parameters`, 30-35 `ReSharingParameters` (the embedded pointer is never nil when built by
NewReSharingParameters). `parties`, `newParties` are the contexts. -/
structure Params where
  ec : Nat
  partyID : Option PartyID
  parties : Nat
  partyCount : Int
  threshold : Int
  concurrency : Int
  safePrimeGenTimeout : Int
  partialKeyRand : Nat
  rand : Nat

structure ReSharing where
  base : Params
  newParties : Nat
  newPartyCount : Int
  newThreshold : Int

/-- params.go:39, 43-55 `NewParameters`; `procs` is runtime.GOMAXPROCS(0), `reader` the system's random source; the timeout is
5 minutes in nanoseconds. -/
def NewParameters (procs : Int) (reader : Nat) (ec ctx : Nat) (partyID : Option PartyID) (partyCount threshold : Int) : Params :=
  ⟨ec, partyID, ctx, partyCount, threshold, procs, 5 * 60 * 1000000000, reader, reader⟩

/-- params.go:86-88, 90-92, 102-104, 106-108. -/
def Params.SetConcurrency (p : Params) (c : Int) : Params := { p with concurrency := c }
def Params.SetSafePrimeGenTimeout (p : Params) (t : Int) : Params := { p with safePrimeGenTimeout := t }
def Params.SetPartialKeyRand (p : Params) (r : Nat) : Params := { p with partialKeyRand := r }
def Params.SetRand (p : Params) (r : Nat) : Params := { p with rand := r }

/-- params.go:113-121 `NewReSharingParameters`. -/
def NewReSharingParameters (procs : Int) (reader : Nat) (ec ctx newCtx : Nat) (partyID : Option PartyID)
    (partyCount threshold newPartyCount newThreshold : Int) : ReSharing :=
  ⟨NewParameters procs reader ec ctx partyID partyCount threshold, newCtx, newPartyCount, newThreshold⟩

/-- params.go:123-125, 127-129, 131-133, 135-137, 139-141, 147-149. -/
def ReSharing.OldParties (r : ReSharing) : Nat := r.base.parties
def ReSharing.OldPartyCount (r : ReSharing) : Int := r.base.partyCount
def ReSharing.NewParties (r : ReSharing) : Nat := r.newParties
def ReSharing.NewPartyCount (r : ReSharing) : Int := r.newPartyCount
def ReSharing.NewThreshold (r : ReSharing) : Int := r.newThreshold
def ReSharing.OldAndNewPartyCount (r : ReSharing) : Int := r.OldPartyCount + r.NewPartyCount

/-- params.go:143-145 `OldAndNewParties`. -/
def ReSharing.OldAndNewParties (grow : Nat → Nat) (h : Heap) (r : ReSharing) : Slice × Heap :=
  h.append grow (h.ctx r.OldParties) (h.ids r.NewParties)

/-- params.go:153-158, 163-168: the loop; a nil id panics (party_id.go:37-39 `KeyInt` reads through it). -/
def member (me : Option PartyID) : List (Option PartyID) → Res Unit Bool
  | [] => .ok false
  | p :: t =>
    match me, p with
    | some a, some b => if a.keyInt = b.keyInt then .ok true else member me t
    | _, _ => .panic

/-- params.go:151-159 `IsOldCommittee`. -/
def ReSharing.IsOldCommittee (h : Heap) (r : ReSharing) : Res Unit Bool := member r.base.partyID (h.ids r.base.parties)

/-- params.go:161-169 `IsNewCommittee`. -/
def ReSharing.IsNewCommittee (h : Heap) (r : ReSharing) : Res Unit Bool := member r.base.partyID (h.ids r.newParties)

/-! ### Rounds -/

/-- keygen/rounds.go:12-19, onsign/rounds.go:14-23 `base` (the parts used here); `ids` is what the context reads. -/
structure Base where
  ids : List (Option PartyID)
  ok : List Bool
  started : Bool
  number : Int

/-- keygen/rounds.go:31-41 `CanProceed`. -/
def Base.CanProceed (b : Base) : Bool := if !b.started then false else b.ok.all id

/-- keygen/rounds.go:47-52: the loop of `WaitingFor` from index `j`. -/
def waitLoop (ids : List (Option PartyID)) : Nat → List Bool → Res Unit (List (Option PartyID))
  | _, [] => .ok []
  | j, true :: t => waitLoop ids (j + 1) t
  | j, false :: t =>
    if _ : j < ids.length then
      match waitLoop ids (j + 1) t with
      | .ok l => .ok (ids[j] :: l)
      | .err e => .err e
      | .panic => .panic
    else .panic

/-- keygen/rounds.go:44-54 `WaitingFor`. -/
def Base.WaitingFor (b : Base) : Res Unit (List (Option PartyID)) := waitLoop b.ids 0 b.ok

/-- keygen/rounds.go:63-67 `resetOK`. -/
def Base.resetOK (b : Base) : Base := { b with ok := b.ok.map fun _ => false }

end Tss.Params
