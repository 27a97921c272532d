import Verif.Model.Common
/-
Model of /repo/crypto/ecpoint.go and /repo/tss/curve.go.
-/
namespace Tss

/-- The part of Go's `elliptic.Curve` interface the code uses (edwards.Edwards(), s256k1.S256()). -/
structure Curve where
  N : Int
  Gx : Int
  Gy : Int
  isOnCurve : Int → Int → Bool
  add : Int → Int → Int → Int → Int × Int
  scalarMult : Int → Int → Bytes → Int × Int
  scalarBaseMult : Bytes → Int × Int

/-- crypto/ecpoint.go:25-28 `ECPoint`.  The curve is a parameter of every operation instead of a field
(all points of one run are on one curve); nil coordinates occur only in the flattening functions. -/
structure ECPoint where
  x : Int
  y : Int
  deriving DecidableEq, Repr

namespace ECPoint

/-- crypto/ecpoint.go:36-41 `NewECPoint` and 112-117 `isOnCurve` for non-nil coordinates;
none is the error return. -/
def new (c : Curve) (x y : Int) : Option ECPoint :=
  if c.isOnCurve x y then some ⟨x, y⟩ else none

/-- crypto/ecpoint.go:57-60 `Add`; none is the error return. -/
def add (c : Curve) (p q : ECPoint) : Option ECPoint :=
  let r := c.add p.x p.y q.x q.y
  new c r.1 r.2

/-- crypto/ecpoint.go:62-67 `ScalarMult`: reduces the scalar modulo N first; none is the nil pointer
returned when the result is off the curve (the error is dropped at line 65).  N = 0 would panic and
does not occur for the registered curves. -/
def scalarMult (c : Curve) (p : ECPoint) (k : Int) : Option ECPoint :=
  let kModN := k % c.N
  let r := c.scalarMult p.x p.y (intBytes kModN)
  new c r.1 r.2

/-- crypto/ecpoint.go:105-110 `ScalarBaseMult`. -/
def scalarBaseMult (c : Curve) (k : Int) : Option ECPoint :=
  let kModN := k % c.N
  let r := c.scalarBaseMult (intBytes kModN)
  new c r.1 r.2

/-- crypto/ecpoint.go:85-90 `Equals`. -/
def equals : Option ECPoint → Option ECPoint → Bool
  | some p, some q => decide (p.x = q.x) && decide (p.y = q.y)
  | _, _ => false

/-- crypto/ecpoint.go:97-99 `ValidateBasic` (non-nil coordinates). -/
def validateBasic (c : Curve) : Option ECPoint → Bool
  | some p => c.isOnCurve p.x p.y
  | none => false

/-- crypto/ecpoint.go:101-103 `EightInvEight` with 30-33 `eightInv`.  The Go constant is the inverse of
8 modulo the order of edwards25519, which is the order of the curve wherever this is called; none is
a nil result, a nil intermediate point panics. -/
def eightInvEight (c : Curve) (p : ECPoint) : Res Unit (Option ECPoint) :=
  match scalarMult c p 8 with
  | none => .panic
  | some q =>
    match modInverse 8 c.N with
    | none => .panic
    | some inv => .ok (scalarMult c q inv)

/-! ### Flattening -/

/-- A point as it can occur in a Go slice: nil, or with nil coordinates. -/
abbrev RawPoint := Option (Option Int × Option Int)

/-- crypto/ecpoint.go:126-132: the flattening loop. -/
def flattenLoop : List RawPoint → Option (List (Option Int))
  | [] => some []
  | some (some x, some y) :: t => (flattenLoop t).map fun r => some x :: some y :: r
  | _ :: _ => none

/-- crypto/ecpoint.go:121-134 `FlattenECPoints`; outer none of the argument is a nil slice,
none of the result an error. -/
def FlattenECPoints (ps : Option (List RawPoint)) : Option (List (Option Int)) :=
  match ps with
  | none => none
  | some l => flattenLoop l

/-- crypto/ecpoint.go:142-151: the unflattening loop (pairs of the flat list). -/
def unflattenLoop (c : Curve) (noCurveCheck : Bool) : List (Option Int) → Option (List RawPoint)
  | x :: y :: t =>
    if noCurveCheck then (unflattenLoop c noCurveCheck t).map (some (x, y) :: ·)
    else match x, y with
      | some a, some b =>
        if c.isOnCurve a b then (unflattenLoop c noCurveCheck t).map (some (some a, some b) :: ·) else none
      | _, _ => none
  | _ => some []

/-- crypto/ecpoint.go:152-156: no nil coordinate may remain. -/
def noNilCoords : List RawPoint → Bool
  | [] => true
  | some (some _, some _) :: t => noNilCoords t
  | _ :: _ => false

/-- crypto/ecpoint.go:136-158 `UnFlattenECPoints`. -/
def UnFlattenECPoints (c : Curve) (ins : Option (List (Option Int))) (noCurveCheck : Bool) :
    Option (List RawPoint) :=
  match ins with
  | none => none
  | some l =>
    if l.length % 2 ≠ 0 then none
    else match unflattenLoop c noCurveCheck l with
      | none => none
      | some ps => if noNilCoords ps then some ps else none

/-! ### Gob -/

/-- math/big `Int.GobEncode`: version/sign byte, then the absolute value. -/
def bigGobEncode (z : Int) : Bytes := (if z < 0 then 3 else 2) :: intBytes z

/-- math/big `Int.GobDecode`: empty input is 0; the version must be 1. -/
def bigGobDecode : Bytes → Option Int
  | [] => some 0
  | b :: t => if b.toNat / 2 ≠ 1 then none
    else if b.toNat % 2 = 1 then some (-(beNat t : Int)) else some (beNat t : Int)

/-- `binary.Write(buf, LittleEndian, uint32(n))`. -/
def le32 (n : Nat) : Bytes := leFixed 4 n

/-- crypto/ecpoint.go:163-186 `GobEncode`. -/
def gobEncode (p : ECPoint) : Bytes :=
  let x := bigGobEncode p.x
  let y := bigGobEncode p.y
  le32 x.length ++ x ++ (le32 y.length ++ y)

/-- crypto/ecpoint.go:191-198 (and 199-206): read a length-prefixed chunk.  `reader.Read` at the end of
the input reports EOF even for a zero-length buffer. -/
def readChunk (buf : Bytes) : Option (Bytes × Bytes) :=
  if buf.length < 4 then none
  else
    let n := leNat (buf.take 4)
    let r := buf.drop 4
    if r.length = 0 then none
    else if r.length < n then none
    else some (r.take n, r.drop n)

/-- crypto/ecpoint.go:188-222 `GobDecode`; `c` is the global curve `tss.EC()`. none is an error. -/
def gobDecode (c : Curve) (buf : Bytes) : Option ECPoint :=
  match readChunk buf with
  | none => none
  | some (x, r1) =>
    match readChunk r1 with
    | none => none
    | some (y, _) =>
      match bigGobDecode x with
      | none => none
      | some X =>
        match bigGobDecode y with
        | none => none
        | some Y => if c.isOnCurve X Y then some ⟨X, Y⟩ else none

/-! ### Curve registry and JSON -/

/-- A registered curve: its Go dynamic type (as seen by `reflect.TypeOf`) and its behaviour. -/
structure RegCurve where
  ty : Nat
  curve : Curve

/-- tss/curve.go:25-37 the registry map and the global curve.  The list is in map-iteration order, which
Go leaves unspecified: theorems quantify over all orders. -/
structure CurveEnv where
  ec : RegCurve
  registry : List (String × RegCurve)

/-- tss/curve.go:44-50 `GetCurveByName`. -/
def getCurveByName (env : CurveEnv) (name : String) : Option RegCurve := env.registry.lookup name

/-- tss/curve.go:53-63 `GetCurveName`: first entry of equal dynamic type, in iteration order. -/
def getCurveNameLoop (ty : Nat) : List (String × RegCurve) → Option String
  | [] => none
  | (n, e) :: t => if ty = e.ty then some n else getCurveNameLoop ty t

/-- tss/curve.go:53-63 `GetCurveName`. -/
def getCurveName (env : CurveEnv) (c : RegCurve) : Option String := getCurveNameLoop c.ty env.registry

/-- tss/curve.go:39-41 `RegisterCurve` (map insert; a key occurs once). -/
def registerCurve (env : CurveEnv) (name : String) (c : RegCurve) : CurveEnv :=
  { env with registry := (name, c) :: env.registry.filter fun e => e.1 ≠ name }

/-- The anonymous JSON record of crypto/ecpoint.go:233-236 and 243-246. -/
structure JsonPoint where
  curve : String
  x : Option Int
  y : Option Int
  deriving DecidableEq, Repr

/-- A JSON codec for that record (encoding/json, not modelled): any decoder that inverts its encoder. -/
structure JsonCodec (α : Type) where
  enc : α → Bytes
  dec : Bytes → Option α
  dec_enc : ∀ v, dec (enc v) = some v

/-- crypto/ecpoint.go:227-240 `MarshalJSON` of a point on the registered curve `rc`. -/
def marshalJSON (J : JsonCodec JsonPoint) (env : CurveEnv) (rc : RegCurve) (p : ECPoint) : Option Bytes :=
  match getCurveName env rc with
  | none => none
  | some n => some (J.enc ⟨n, some p.x, some p.y⟩)

/-- crypto/ecpoint.go:242-268 `UnmarshalJSON`: returns the curve and the point; none is an error.
A missing curve name means the global curve; nil coordinates are "not on the curve". -/
def unmarshalJSON (J : JsonCodec JsonPoint) (env : CurveEnv) (payload : Bytes) : Option (RegCurve × ECPoint) :=
  match J.dec payload with
  | none => none
  | some aux =>
    let rc := if aux.curve.length > 0 then getCurveByName env aux.curve else some env.ec
    match rc with
    | none => none
    | some rc =>
      match aux.x, aux.y with
      | some x, some y => if rc.curve.isOnCurve x y then some (rc, ⟨x, y⟩) else none
      | _, _ => none

end ECPoint
end Tss
