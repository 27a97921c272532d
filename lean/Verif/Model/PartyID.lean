import Verif.Model.Go
/-
Model of /repo/tss/party_id.go.
-/
namespace Tss

/-- tss/party_id.go:22-25 `PartyID` with the embedded protobuf record (`Id`, `Moniker`, `Key`).
`key = none` is a nil key slice. -/
structure PartyID where
  id : String
  moniker : String
  key : Option Bytes
  index : Int
  deriving DecidableEq, Repr

namespace PartyID

/-- tss/party_id.go:37-39 `KeyInt`. -/
def keyInt (p : PartyID) : Int := (beNat (p.key.getD []) : Int)

/-- tss/party_id.go:31-33 `ValidateBasic`; the receiver may be nil. -/
def ValidateBasic : Option PartyID → Bool
  | none => false
  | some p => p.key.isSome && decide (0 ≤ p.index)

/-- tss/party_id.go:45-54 `NewPartyID`: the key is stored as the bytes of the absolute value;
a nil key panics (none). -/
def new (id moniker : String) (key : Option Int) : Option PartyID :=
  key.map fun k => { id := id, moniker := moniker, key := some (intBytes k), index := -1 }

/-- tss/party_id.go:143-145 `Less`: note the non-strict comparison. -/
def less (a b : PartyID) : Bool := decide (a.keyInt ≤ b.keyInt)

/-- One inner loop of `sort.insertionSort` (Go sort.Sort for up to 12 elements): the new element `x`
moves left past every neighbour `y` with `Less(x, y)`.  The sorted prefix is kept reversed. -/
def insertRev (x : PartyID) : List PartyID → List PartyID
  | [] => [x]
  | y :: t => if less x y then y :: insertRev x t else x :: y :: t

/-- `sort.insertionSort`: reversed sorted prefix as accumulator. -/
def insertionSort (l : List PartyID) : List PartyID :=
  (l.foldl (fun acc x => insertRev x acc) []).reverse

/-- tss/party_id.go:71-77: assign indices `frm, frm+1, ...`. -/
def assignIdx : Int → List PartyID → List PartyID
  | _, [] => []
  | i, p :: t => { p with index := i } :: assignIdx (i + 1) t

/-- tss/party_id.go:64-79 `SortPartyIDs`.  `sort.Sort` is modelled by insertion sort, which is what Go
runs for at most 12 elements; theorems about distinct keys are independent of the algorithm. The Go
function also writes the index into the shared `*PartyID` of the argument list. -/
def SortPartyIDs (ids : List PartyID) (startAt : Option Int) : List PartyID :=
  assignIdx (startAt.getD 0) (insertionSort ids)

/-- tss/party_id.go:105-111 `Keys`. -/
def Keys (l : List PartyID) : List Int := l.map keyInt

/-- tss/party_id.go:117-124 `FindByKey`. -/
def FindByKey (key : Int) : List PartyID → Option PartyID
  | [] => none
  | p :: t => if p.keyInt = key then some p else FindByKey key t

/-- tss/party_id.go:126-135 `Exclude`. -/
def Exclude (exclude : PartyID) : List PartyID → List PartyID
  | [] => []
  | p :: t => if p.keyInt = exclude.keyInt then Exclude exclude t else p :: Exclude exclude t

end PartyID
end Tss
