import Verif.Model.Keygen
/-
Model of /repo/eddsacmp/keygen/save_data.go, `BuildLocalSaveDataSubset`.
-/
namespace Tss.Keygen
open Tss Text

/-- eddsacmp/keygen/save_data.go:62-66: the map from hex key to the last index that carries it.
none is the panic of `Bytes` on a nil key. -/
def keysToIndices : List (Option Int) → Nat → (Bytes → Option Nat) → Option (Bytes → Option Nat)
  | [], _, m => some m
  | none :: _, _, _ => none
  | some k :: t, j, m => keysToIndices t (j + 1) fun b => if b = hexEncode (intBytes k) then some j else m b

/-- eddsacmp/keygen/save_data.go:70-82: the copy loop.  `newData.Ks` and `newData.PubXj` are the source
slices themselves (line 68 copies the slice headers), so reads see earlier writes and the state here holds the
one shared copy; the Paillier and ring-Pedersen lists are fresh.  An index beyond a slice panics.  The error
carries `id.Key`. -/
def buildLoop (src : SaveData) (m : Bytes → Option Nat) : Nat → List PartyID → SaveData → Res Bytes SaveData
  | _, [], d => .ok d
  | j, id :: t, d =>
    match m (hexEncode (id.key.getD [])) with
    | none => .err (id.key.getD [])
    | some s =>
      match d.ks[s]?, d.pubXj[s]?, src.paillierPKs[s]?, src.ringPedersenPKs[s]? with
      | some k, some X, some n, some r =>
        if j < d.ks.length ∧ j < d.pubXj.length ∧ j < d.paillierPKs.length ∧ j < d.ringPedersenPKs.length then
          buildLoop src m (j + 1) t { d with
            ks := d.ks.set j k
            pubXj := d.pubXj.set j X
            paillierPKs := d.paillierPKs.set j n
            ringPedersenPKs := d.ringPedersenPKs.set j r }
        else .panic
      | _, _, _, _ => .panic

/-- eddsacmp/keygen/save_data.go:60-83 `BuildLocalSaveDataSubset`. -/
def BuildLocalSaveDataSubset (src : SaveData) (sortedIDs : List PartyID) : Res Bytes SaveData :=
  match keysToIndices src.ks 0 (fun _ => none) with
  | none => .panic
  | some m =>
    buildLoop src m 0 sortedIDs { src with
      paillierPKs := List.replicate sortedIDs.length none
      ringPedersenPKs := List.replicate sortedIDs.length none }

end Tss.Keygen
