import Verif.Model.Go
/-
Model of /repo/common: hash.go, hash_utils.go, slice.go, int.go, random.go.
The SHA-512/256 compression itself is the parameter `H : Bytes → Bytes`.
-/
namespace Tss.Common

/-- common/hash.go:17 `hashInputDelimiter = byte('$')`. -/
def delimiter : UInt8 := 0x24

/-- common/hash.go:41-48 (= 79-86 = 141-148): one framed part: contents, delimiter, 8-byte length. -/
def framePart (b : Bytes) : Bytes := b ++ delimiter :: le64 b.length

/-- common/hash.go:29-48: the octets written to the hash: 8-byte part count, then the framed parts. -/
def frame (parts : List Bytes) : Bytes := le64 parts.length ++ parts.flatMap framePart

/-- common/hash.go:22-56 `SHA512_256`: nil (none) for no parts.  The `state.Write` error branch is
unreachable (hash.Hash never returns an error) and is not modelled. -/
def SHA512_256 (H : Bytes → Bytes) (parts : List Bytes) : Option Bytes :=
  if parts.length = 0 then none else some (H (frame parts))

/-- common/hash.go:71-75 `n.Bytes()` of each argument: a nil pointer panics (none). -/
def bytesOfAll : List (Option Int) → Option (List Bytes)
  | [] => some []
  | none :: _ => none
  | some z :: t => (bytesOfAll t).map (intBytes z :: ·)

/-- common/hash.go:58-94 `SHA512_256i`: `ok none` is a returned nil. -/
def SHA512_256i (H : Bytes → Bytes) (ins : List (Option Int)) : Res Unit (Option Int) :=
  if ins.length = 0 then .ok none
  else match bytesOfAll ins with
    | none => .panic
    | some parts => .ok (some (beNat (H (frame parts))))

/-- common/hash.go:96-110 `SHA512_256iOne`. -/
def SHA512_256iOne (H : Bytes → Bytes) (z : Option Int) : Option Int :=
  match z with
  | none => none
  | some z => some (beNat (H (intBytes z)))

/-- common/hash.go:130-137: nil arguments are hashed as `zero`. -/
def bytesOrZero (z : Option Int) : Bytes :=
  match z with
  | none => intBytes 0
  | some z => intBytes z

/-- common/hash.go:113-156 `SHA512_256i_TAGGED`: the state receives the tag digest twice, then the
framed integers. -/
def SHA512_256i_TAGGED (H : Bytes → Bytes) (tag : Bytes) (ins : List (Option Int)) : Option Int :=
  let tagBz := (SHA512_256 H [tag]).getD []
  if ins.length = 0 then none
  else some (beNat (H (tagBz ++ tagBz ++ frame (ins.map bytesOrZero))))

/-- common/hash_utils.go:15-18 `RejectionSample`: `Mod` panics for a zero modulus.  (The Go function
also overwrites its second argument; the callers never reuse it.) -/
def RejectionSample (q eHash : Int) : Res Unit Int :=
  if q = 0 then .panic else .ok (eHash % q)

/-- common/slice.go:13-22 `BigIntsToBytes` (nil elements stay nil, i.e. empty). -/
def BigIntsToBytes (l : List (Option Int)) : List Bytes :=
  l.map fun z => match z with
    | none => []
    | some z => intBytes z

/-- common/slice.go:24-30 `MultiBytesToBigInts`. -/
def MultiBytesToBigInts (l : List Bytes) : List Int := l.map fun b => (beNat b : Int)

/-- common/slice.go:33-35 `NonEmptyBytes`. -/
def NonEmptyBytes (b : Bytes) : Bool := 0 < b.length

/-- common/slice.go:46-51: the loop over the elements. -/
def allNonEmpty : List Bytes → Bool
  | [] => true
  | b :: t => if !NonEmptyBytes b then false else allNonEmpty t

/-- common/slice.go:38-52 `NonEmptyMultiBytes` (the variadic argument is an option). -/
def NonEmptyMultiBytes (bzs : List Bytes) (expectLen : Option Int) : Bool :=
  if bzs.length = 0 then false
  else match expectLen with
    | some n => if n ≠ bzs.length then false else allNonEmpty bzs
    | none => allNonEmpty bzs

/-- common/slice.go:59-61: prepend one zero `n` times. -/
def prependZeros : Nat → Bytes → Bytes
  | 0, src => src
  | n + 1, src => prependZeros n (0 :: src)

/-- common/slice.go:56-64 `PadToLengthBytesInPlace`. -/
def PadToLengthBytesInPlace (src : Bytes) (length : Int) : Bytes :=
  if (src.length : Int) < length then prependZeros (length - src.length).toNat src else src

/-- common/int.go:26-30 `modInt.Add`; `Mod` panics (none) for modulus 0, in all of these. -/
def modAdd (n x y : Int) : Res Unit Int := if n = 0 then .panic else .ok ((x + y) % n)
/-- common/int.go:32-36 `modInt.Sub`. -/
def modSub (n x y : Int) : Res Unit Int := if n = 0 then .panic else .ok ((x - y) % n)
/-- common/int.go:38-42 `modInt.Div` (Euclidean integer division, then reduction). -/
def modDiv (n x y : Int) : Res Unit Int := if n = 0 ∨ y = 0 then .panic else .ok ((x / y) % n)
/-- common/int.go:44-48 `modInt.Mul`. -/
def modMul (n x y : Int) : Res Unit Int := if n = 0 then .panic else .ok ((x * y) % n)
/-- common/int.go:50-52 `modInt.Exp` (nil = none). -/
def modExp (n x y : Int) : Option Int := bigExp x y n
/-- common/int.go:54-56 `modInt.ModInverse` (nil = none). -/
def modInv (n g : Int) : Option Int := modInverse g n

/-- common/int.go:62-67 `AppendBigIntToBytesSlice`. -/
def AppendBigIntToBytesSlice (commonBytes : Bytes) (appended : Int) : Bytes :=
  commonBytes ++ intBytes appended

/-! ### random.go.  The reader is a finite tape of bytes; reading past its end is the reader's error. -/

/-- `io.ReadFull` of `k` bytes. -/
def readFull (k : Nat) (tape : Bytes) : Option (Bytes × Bytes) :=
  if tape.length < k then none else some (tape.take k, tape.drop k)

/-- crypto/rand.Int: `bytes[0] &= (1<<b) - 1`. -/
def maskFirst (b : Nat) : Bytes → Bytes
  | [] => []
  | x :: t => UInt8.ofNat (x.toNat % 2 ^ b) :: t

/-- crypto/rand.Int inner loop: draw `k` bytes, clear the excess high bits (`b` significant bits in
the first byte), retry until below `max`.  Each round consumes `k ≥ 1` bytes, `fuel` bounds the rounds. -/
def randIntLoop (max k b : Nat) : Nat → Bytes → Option (Nat × Bytes)
  | 0, _ => none
  | f + 1, tape =>
    match readFull k tape with
    | none => none
    | some (buf, rest) =>
      let n := beNat (maskFirst b buf)
      if n < max then some (n, rest) else randIntLoop max k b f rest

/-- crypto/rand.Int(rand, max) (standard library): panics for `max ≤ 0`, error when the tape ends. -/
def randInt (max : Int) (tape : Bytes) : Res Unit (Int × Bytes) :=
  if max ≤ 0 then .panic
  else
    let bl := bitLen (max - 1)
    if bl = 0 then .ok (0, tape)
    else
      let b := if bl % 8 = 0 then 8 else bl % 8
      match randIntLoop max.toNat ((bl + 7) / 8) b (tape.length + 1) tape with
      | some (n, rest) => .ok ((n : Int), rest)
      | none => .err ()

/-- common/random.go:19. -/
def mustGetRandomIntMaxBits : Int := 5000

/-- common/random.go:23-37 `MustGetRandomInt`: a reader error panics too. -/
def MustGetRandomInt (bits : Int) (tape : Bytes) : Res Unit (Int × Bytes) :=
  if bits ≤ 0 ∨ mustGetRandomIntMaxBits < bits then .panic
  else
    let max : Int := 2 ^ bits.toNat - 1
    match randInt max tape with
    | .ok r => .ok r
    | .err _ => .panic
    | .panic => .panic

/-- Result of running a Go `for` loop for a bounded number of rounds: finished, or still running. -/
abbrev Run (α : Type) := Option (Res Unit α)

/-- common/random.go:44-49 the retry loop of `GetRandomPositiveInt`. -/
def getRandomPositiveIntLoop (lessThan : Int) : Nat → Bytes → Run (Option Int × Bytes)
  | 0, _ => none
  | f + 1, tape =>
    match MustGetRandomInt (bitLen lessThan) tape with
    | .ok (n, rest) =>
      if n < lessThan then some (.ok (some n, rest)) else getRandomPositiveIntLoop lessThan f rest
    | .err _ => some (.err ())
    | .panic => some .panic

/-- common/random.go:39-51 `GetRandomPositiveInt` run for at most `fuel` rounds. -/
def GetRandomPositiveInt (lessThan : Option Int) (fuel : Nat) (tape : Bytes) : Run (Option Int × Bytes) :=
  match lessThan with
  | none => some (.ok (none, tape))
  | some n => if ¬ 0 < n then some (.ok (none, tape)) else getRandomPositiveIntLoop n fuel tape

/-- common/random.go:87-94 `IsNumberInMultiplicativeGroup`. -/
def IsNumberInMultiplicativeGroup (n v : Option Int) : Bool :=
  match n, v with
  | some n, some v => if ¬ 0 < n then false else decide (v < n) && decide (1 ≤ v) && (Int.gcd v n == 1)
  | _, _ => false

/-- common/random.go:78-83 the retry loop of `GetRandomPositiveRelativelyPrimeInt`. -/
def relPrimeLoop (n : Int) : Nat → Bytes → Run (Option Int × Bytes)
  | 0, _ => none
  | f + 1, tape =>
    match MustGetRandomInt (bitLen n) tape with
    | .ok (t, rest) =>
      if IsNumberInMultiplicativeGroup (some n) (some t) then some (.ok (some t, rest))
      else relPrimeLoop n f rest
    | .err _ => some (.err ())
    | .panic => some .panic

/-- common/random.go:73-85 `GetRandomPositiveRelativelyPrimeInt` run for at most `fuel` rounds. -/
def GetRandomPositiveRelativelyPrimeInt (n : Option Int) (fuel : Nat) (tape : Bytes) :
    Run (Option Int × Bytes) :=
  match n with
  | none => some (.ok (none, tape))
  | some n => if ¬ 0 < n then some (.ok (none, tape)) else relPrimeLoop n fuel tape

/-- common/random.go:100-104 `GetRandomGeneratorOfTheQuadraticResidue` (a nil `f` panics). -/
def GetRandomGeneratorOfTheQuadraticResidue (n : Option Int) (fuel : Nat) (tape : Bytes) :
    Run (Int × Bytes) :=
  match GetRandomPositiveRelativelyPrimeInt n fuel tape with
  | none => none
  | some (.ok (some f, rest)) => some (.ok (f * f % n.getD 0, rest))
  | some (.ok (none, _)) => some .panic
  | some (.err _) => some (.err ())
  | some .panic => some .panic

/-- common/random.go:117-130 `GetRandomBytes`. -/
def GetRandomBytes (length : Int) (tape : Bytes) : Res Unit (Bytes × Bytes) :=
  if length ≤ 0 then .err ()
  else match readFull length.toNat tape with
    | some r => .ok r
    | none => .err ()

end Tss.Common
