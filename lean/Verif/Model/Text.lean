import Verif.Model.Go
/-
Model of the textual encodings the API takes its arguments in (standard library behaviour:
encoding/base64 StdEncoding, encoding/hex, big.Int.SetString, strconv.Itoa, strings.Split).
Go strings are byte strings, so texts are `Bytes`.
-/
namespace Tss.Text
open Tss

/-- ASCII text of a Lean string literal. -/
def ascii (s : String) : Bytes := s.toList.map fun c => UInt8.ofNat c.toNat

/-- Value of a digit character `0-9 a-z A-Z` (math/big digit set for bases up to 36). -/
def digitVal (b : UInt8) : Option Nat :=
  let n := b.toNat
  if 48 ≤ n ∧ n ≤ 57 then some (n - 48)
  else if 97 ≤ n ∧ n ≤ 122 then some (n - 97 + 10)
  else if 65 ≤ n ∧ n ≤ 90 then some (n - 65 + 10)
  else none

/-- Accumulate digits in `base`; none at the first non-digit. -/
def digitsVal (base : Nat) : Nat → Bytes → Option Nat
  | acc, [] => some acc
  | acc, b :: t =>
    match digitVal b with
    | some d => if d < base then digitsVal base (acc * base + d) t else none
    | none => none

/-- An unsigned number: at least one digit. -/
def parseNat (base : Nat) (s : Bytes) : Option Nat :=
  match s with
  | [] => none
  | _ => digitsVal base 0 s

/-- `new(big.Int).SetString(s, base)` for base 10 or 16: optional sign, then digits, nothing else. -/
def parseBig (base : Nat) (s : Bytes) : Option Int :=
  match s with
  | [] => none
  | b :: t =>
    if b = 43 then (parseNat base t).map fun (n : Nat) => (n : Int)
    else if b = 45 then (parseNat base t).map fun (n : Nat) => -(n : Int)
    else (parseNat base s).map fun (n : Nat) => (n : Int)

/-- One hexadecimal digit. -/
def hexVal (b : UInt8) : Option Nat :=
  match digitVal b with
  | some d => if d < 16 then some d else none
  | none => none

/-- `hex.DecodeString`; none is an error (odd length or a bad digit). -/
def hexDecode : Bytes → Option Bytes
  | [] => some []
  | [_] => none
  | a :: b :: t =>
    match hexVal a, hexVal b, hexDecode t with
    | some x, some y, some r => some (UInt8.ofNat (x * 16 + y) :: r)
    | _, _, _ => none

/-- Hex digit character. -/
def hexDigit (n : Nat) : UInt8 := if n < 10 then UInt8.ofNat (48 + n) else UInt8.ofNat (87 + n)

/-- `hex.EncodeToString`. -/
def hexEncode (b : Bytes) : Bytes := b.flatMap fun x => [hexDigit (x.toNat / 16), hexDigit (x.toNat % 16)]

/-- `strings.Split(s, sep)` for a one-byte separator: always at least one piece. -/
def split (sep : UInt8) : Bytes → List Bytes
  | [] => [[]]
  | b :: t =>
    if b = sep then [] :: split sep t
    else match split sep t with
      | [] => [[b]]
      | h :: r => (b :: h) :: r

/-- Decimal digits of a natural, most significant first, with fuel. -/
def decAux : Nat → Nat → Bytes
  | 0, n => [UInt8.ofNat (48 + n % 10)]
  | f + 1, n => if n < 10 then [UInt8.ofNat (48 + n)] else decAux f (n / 10) ++ [UInt8.ofNat (48 + n % 10)]

/-- `strconv.Itoa` of a non-negative int. -/
def itoa (n : Nat) : Bytes := decAux n n

/-- `strconv.Atoi` (64-bit): optional sign, decimal digits, in the int64 range; none is an error. -/
def atoi (s : Bytes) : Option Int :=
  match parseBig 10 s with
  | some z => if -(2 ^ 63) ≤ z ∧ z < 2 ^ 63 then some z else none
  | none => none

/-- Base-64 digit value. -/
def b64Val (b : UInt8) : Option Nat :=
  let n := b.toNat
  if 65 ≤ n ∧ n ≤ 90 then some (n - 65)
  else if 97 ≤ n ∧ n ≤ 122 then some (n - 97 + 26)
  else if 48 ≤ n ∧ n ≤ 57 then some (n - 48 + 52)
  else if n = 43 then some 62
  else if n = 47 then some 63
  else none

/-- Base-64 digit character. -/
def b64Digit (n : Nat) : UInt8 :=
  if n < 26 then UInt8.ofNat (65 + n)
  else if n < 52 then UInt8.ofNat (71 + n)
  else if n < 62 then UInt8.ofNat (n - 4)
  else if n = 62 then 43 else 47

/-- `base64.StdEncoding.EncodeToString`. -/
def b64Encode : Bytes → Bytes
  | [] => []
  | [a] => [b64Digit (a.toNat / 4), b64Digit (a.toNat % 4 * 16), 61, 61]
  | [a, b] => [b64Digit (a.toNat / 4), b64Digit (a.toNat % 4 * 16 + b.toNat / 16), b64Digit (b.toNat % 16 * 4), 61]
  | a :: b :: c :: t =>
    b64Digit (a.toNat / 4) :: b64Digit (a.toNat % 4 * 16 + b.toNat / 16) ::
      b64Digit (b.toNat % 16 * 4 + c.toNat / 64) :: b64Digit (c.toNat % 64) :: b64Encode t

/-- Decoding of groups of four characters (newlines already removed). -/
def b64Quads : Bytes → Option Bytes
  | [] => some []
  | a :: b :: c :: d :: t =>
    if c = 61 then
      -- "xx==" must end the input; the unused low bits are ignored (StdEncoding is not strict)
      if d = 61 ∧ t = [] then
        match b64Val a, b64Val b with
        | some x, some y => some [UInt8.ofNat (x * 4 + y / 16)]
        | _, _ => none
      else none
    else if d = 61 then
      if t = [] then
        match b64Val a, b64Val b, b64Val c with
        | some x, some y, some z => some [UInt8.ofNat (x * 4 + y / 16), UInt8.ofNat (y % 16 * 16 + z / 4)]
        | _, _, _ => none
      else none
    else
      match b64Val a, b64Val b, b64Val c, b64Val d, b64Quads t with
      | some x, some y, some z, some w, some r =>
        some (UInt8.ofNat (x * 4 + y / 16) :: UInt8.ofNat (y % 16 * 16 + z / 4) :: UInt8.ofNat (z % 4 * 64 + w) :: r)
      | _, _, _, _, _ => none
  | _ => none

/-- `base64.StdEncoding.DecodeString`: CR and LF are skipped. -/
def b64Decode (s : Bytes) : Option Bytes := b64Quads (s.filter fun b => b ≠ 13 ∧ b ≠ 10)

end Tss.Text
