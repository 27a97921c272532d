import Verif.Model.Go
/-
Model of `Xor` of /repo/crypto/alice/utils/utils.go.
-/
namespace Tss

/-- crypto/alice/utils/utils.go `Xor`, the case `len(big) ≥ len(small)`: xor of the common prefix, then
the rest of the longer array. -/
def xorPrefix : Bytes → Bytes → Bytes
  | a :: s, b :: t => (a ^^^ b) :: xorPrefix s t
  | l, [] => l
  | [], _ => []

/-- crypto/alice/utils/utils.go `Xor` (the recursive call swaps the arguments once). -/
def xorBytes (a b : Bytes) : Bytes :=
  if a.length < b.length then xorPrefix b a else xorPrefix a b

end Tss
