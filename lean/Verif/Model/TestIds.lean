import Verif.Model.PartyID
import Verif.Model.Common
/-
Model of `GenerateTestPartyIDs` (/repo/tss/party_id.go:81-103).
-/
namespace Tss.PartyID
open Tss

/-- tss/party_id.go:91-101: the loop `for ; i < count+frm; i++`, run for `n = count` steps from `i`. Machine integers are unbounded here. -/
def testIdsLoop (key count : Int) : Nat → Int → List PartyID
  | 0, _ => []
  | n + 1, i =>
    { id := toString (i + 1), moniker := "P[" ++ toString (i + 1) ++ "]", key := some (intBytes (key - (count - i))), index := i } ::
      testIdsLoop key count n (i + 1)

/-- tss/party_id.go:82-103 for the random number drawn. A negative count is a negative capacity, which panics (none). -/
def testIdsFor (key count : Int) (startAt : Option Int) : Option (List PartyID) :=
  if count < 0 then none else some (SortPartyIDs (testIdsLoop key count count.toNat (startAt.getD 0)) startAt)

/-- tss/party_id.go:82-103 `GenerateTestPartyIDs`, reading randomness from a tape. The capacity is used before the draw. -/
def GenerateTestPartyIDs (count : Int) (startAt : Option Int) (tape : Bytes) : Res Unit (List PartyID × Bytes) :=
  if count < 0 then .panic
  else match Common.MustGetRandomInt 256 tape with
    | .ok (key, rest) => match testIdsFor key count startAt with
      | none => .panic
      | some l => .ok (l, rest)
    | .err u => .err u
    | .panic => .panic

end Tss.PartyID
