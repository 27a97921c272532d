import Verif.Model.EC
/-
Model of /repo/eddsacmp/onsign/utils.go, and of the functions of the two curve libraries the code base
calls: github.com/agl/ed25519/edwards25519 (field and extended group elements) and
github.com/decred/dcrd/dcrec/edwards/v2 (the elliptic.Curve returned by tss.Edwards()).  The libraries
are not part of /repo; they are modelled by their published formulas on field values instead of limbs.
-/
namespace Tss.Ed
open Tss

/-- The field modulus 2^255 - 19. -/
def P : Nat := 2 ^ 255 - 19

/-- The order of the base point. -/
def ord : Nat := 2 ^ 252 + 27742317777372353535851937790883648493

/-- The curve constant d = -121665/121666. -/
def dN : Nat := 37095705934669439343138083508754565189542113879843219016388785533085940283555

/-- Base point. -/
def Bx : Nat := 15112221349535400772501151409588531511454012693041857206046113283949847762202
/-- Base point. -/
def By : Nat := 46316835694926478169428394003475163141307993866256225615783033603165251855960

/-! ### Byte conversions (onsign/utils.go) -/

/-- eddsacmp/onsign/utils.go:44-64 `copyBytes`: pad on the left to 32 bytes; of a longer string only the
first 32 bytes are kept.  (`a.Bytes()` is never nil.) -/
def copyBytes (aB : Bytes) : Bytes :=
  if aB.length < 32 then List.replicate (32 - aB.length) 0 ++ aB else aB.take 32

/-- eddsacmp/onsign/utils.go:28-42 `bigIntToEncodedBytes` with 82-86 `reverse`; nil gives zeros. -/
def bigIntToEncodedBytes (a : Option Int) : Bytes :=
  match a with
  | none => List.replicate 32 0
  | some a => (copyBytes (intBytes a)).reverse

/-- eddsacmp/onsign/utils.go:14-26 `encodedBytesToBigInt`. -/
def encodedBytesToBigInt (s : Bytes) : Int := (beNat s.reverse : Int)

/-! ### Field elements: agl/ed25519/edwards25519 -/

/-- `FeFromBytes`: the low 255 bits. -/
def feFromBytes (s : Bytes) : Nat := leNat s % 2 ^ 255

/-- `FeToBytes`: the canonical representative, little endian. -/
def feToBytes (a : Nat) : Bytes := leFixed 32 (a % P)

/-- `FeIsNegative`: parity of the canonical representative. -/
def feIsNegative (a : Nat) : Bool := decide (a % P % 2 = 1)

/-- `FeAdd`. -/
def feAdd (a b : Nat) : Nat := (a + b) % P
/-- `FeSub`. -/
def feSub (a b : Nat) : Nat := (a + (P - b % P)) % P
/-- `FeMul`. -/
def feMul (a b : Nat) : Nat := a * b % P

/-- Square-and-multiply with fuel: `acc * a^n mod P`. -/
def fePowAux : Nat → Nat → Nat → Nat → Nat
  | 0, _, _, acc => acc % P
  | f + 1, a, n, acc =>
    if n = 0 then acc % P else fePowAux f (a * a % P) (n / 2) (if n % 2 = 1 then acc * a % P else acc)

/-- `FeInvert`: exponentiation by P - 2. -/
def feInvert (a : Nat) : Nat := fePowAux 256 a (P - 2) 1

/-! ### Extended group elements -/

/-- `ExtendedGroupElement`: x = X/Z, y = Y/Z, xy = T/Z. -/
structure Ext where
  X : Nat
  Y : Nat
  Z : Nat
  T : Nat
  deriving DecidableEq, Repr

/-- `ExtendedGroupElement.Zero`. -/
def Ext.zero : Ext := ⟨0, 1, 1, 0⟩

/-- `GeAdd` on the cached form of `q`, then `ToExtended`: eddsacmp/onsign/utils.go:88-96
`addExtendedElements`. -/
def Ext.add (p q : Ext) : Ext :=
  let yPlusX := feAdd q.Y q.X
  let yMinusX := feSub q.Y q.X
  let t2d := feMul q.T (feAdd dN dN)
  let z := feMul (feAdd p.Y p.X) yPlusX
  let y := feMul (feSub p.Y p.X) yMinusX
  let t := feMul t2d p.T
  let t0 := feAdd (feMul p.Z q.Z) (feMul p.Z q.Z)
  let cX := feSub z y
  let cY := feAdd z y
  let cZ := feAdd t0 t
  let cT := feSub t0 t
  ⟨feMul cX cT, feMul cY cZ, feMul cZ cT, feMul cX cY⟩

/-- `ExtendedGroupElement.ToBytes`: y with the parity of x in the top bit. -/
def Ext.toBytes (e : Ext) : Bytes :=
  let recip := feInvert e.Z
  let x := feMul e.X recip
  let y := feMul e.Y recip
  leFixed 32 (y % P + (if feIsNegative x then 2 ^ 255 else 0))

/-- The affine coordinates. -/
def Ext.affine (e : Ext) : Int × Int :=
  let recip := feInvert e.Z
  ((feMul e.X recip : Nat), (feMul e.Y recip : Nat))

/-- Scalar multiplication by double-and-add, least significant bit first, with fuel. -/
def Ext.smulAux : Nat → Nat → Ext → Ext → Ext
  | 0, _, _, acc => acc
  | f + 1, n, q, acc =>
    if n = 0 then acc else Ext.smulAux f (n / 2) (q.add q) (if n % 2 = 1 then acc.add q else acc)

/-- `n` times an extended element. -/
def Ext.smul (n : Nat) (q : Ext) : Ext := Ext.smulAux (n.log2 + 1) n q Ext.zero

/-- The base point. -/
def Ext.base : Ext := ⟨Bx, By, 1, feMul Bx By⟩

/-- `GeScalarMultBase` (documented for scalars with a[31] <= 127); the library uses signed radix-16 digits
and tables, modelled here by double-and-add. -/
def geScalarMultBase (a : Bytes) : Ext := Ext.smul (leNat a) Ext.base

/-- eddsacmp/onsign/utils.go:66-80 `ecPointToEncodedBytes` (= decred `bigIntPointToEncodedBytes`): the
bytes of y with the top bit replaced by the parity of x. -/
def ecPointToEncodedBytes (x y : Int) : Bytes :=
  let s := bigIntToEncodedBytes (some y)
  let neg := feIsNegative (feFromBytes (bigIntToEncodedBytes (some x)))
  let b := s.getD 31 0
  s.set 31 (if neg then b ||| 0x80 else b &&& 0x7f)

/-- eddsacmp/onsign/utils.go:98-123 `ecPointToExtendedElement`; `z` is the random draw. -/
def ecPointToExtendedElement (x y z : Int) : Ext :=
  let fx := feFromBytes (bigIntToEncodedBytes (some x))
  let fy := feFromBytes (bigIntToEncodedBytes (some y))
  let Z := feFromBytes (bigIntToEncodedBytes (some z))
  let X := feMul fx Z
  let Y := feMul fy Z
  let fxy := feMul fx fy
  ⟨X, Y, Z, feMul fxy Z⟩

/-! ### The curve of decred/dcrec/edwards -/

/-- Field value of an affine coordinate as the library reads it. -/
def fe (z : Int) : Nat := feFromBytes (bigIntToEncodedBytes (some z))

/-- An affine point as an extended element (Z = 1). -/
def Ext.ofXY (x y : Int) : Ext := ⟨fe x, fe y, 1, feMul (fe x) (fe y)⟩

/-- `edwards.Edwards()`: the curve equation is checked on field values, sums and multiples are returned in
canonical affine coordinates; scalars are big-endian and not reduced. -/
def curve : Curve where
  N := ord
  Gx := Bx
  Gy := By
  isOnCurve x y :=
    let x2 := feMul (fe x) (fe x)
    let y2 := feMul (fe y) (fe y)
    decide (feSub y2 x2 = feAdd 1 (feMul dN (feMul x2 y2)))
  add x1 y1 x2 y2 := ((Ext.ofXY x1 y1).add (Ext.ofXY x2 y2)).affine
  scalarMult x y k := (Ext.smul (beNat k) (Ext.ofXY x y)).affine
  scalarBaseMult k := (Ext.smul (beNat k) Ext.base).affine

/-- ScReduce: a 64-byte little-endian value modulo the order. -/
def scReduce (s : Bytes) : Bytes := leFixed 32 (leNat s % ord)

/-- ScMulAdd: (a * b + c) mod the order, little endian. -/
def scMulAdd (a b c : Bytes) : Bytes := leFixed 32 ((leNat a * leNat b + leNat c) % ord)

end Tss.Ed
