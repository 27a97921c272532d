import Verif.Model.Text
/-
Model of encoding/json (Go 1.21) as far as the code base uses it: the texts `json.Marshal` writes for values built from null,
booleans, integers, ASCII strings, arrays and objects, and the grammar `json.Unmarshal` accepts (scanner.go, decode.go `unquote`).
-/
namespace Tss
open Text

/-- A JSON value; numbers keep their text, strings are decoded. -/
inductive Json where
  | null
  | bool (b : Bool)
  | num (text : Bytes)
  | str (s : Bytes)
  | arr (l : List Json)
  | obj (l : List (Bytes × Json))
  deriving Repr, Inhabited

namespace Json

/-! ### Writing -/

/-- encoding/json encode.go `appendString`: one ASCII byte of a string, HTML escaping on. -/
def esc (b : UInt8) : Bytes :=
  if b = 34 then [92, 34]
  else if b = 92 then [92, 92]
  else if b = 10 then [92, 110]
  else if b = 13 then [92, 114]
  else if b = 9 then [92, 116]
  else if b < 32 ∨ b = 60 ∨ b = 62 ∨ b = 38 then [92, 117, 48, 48, hexDigit (b.toNat / 16), hexDigit (b.toNat % 16)]
  else [b]

/-- A string of ASCII characters. -/
def quote (s : Bytes) : Bytes := 34 :: (s.flatMap esc ++ [34])

mutual
/-- `json.Marshal`: no spaces; strings must be ASCII (see `quote`). -/
def render : Json → Bytes
  | .null => ascii "null"
  | .bool b => if b then ascii "true" else ascii "false"
  | .num t => t
  | .str s => quote s
  | .arr l => 91 :: (renderElems l ++ [93])
  | .obj l => 123 :: (renderMembers l ++ [125])
/-- The elements of an array, separated by commas. -/
def renderElems : List Json → Bytes
  | [] => []
  | v :: t => render v ++ (if t.isEmpty then [] else 44 :: renderElems t)
/-- The members of an object, separated by commas. -/
def renderMembers : List (Bytes × Json) → Bytes
  | [] => []
  | (k, v) :: t => quote k ++ 58 :: (render v ++ (if t.isEmpty then [] else 44 :: renderMembers t))
end

/-! ### Reading -/

/-- scanner.go `isSpace`. -/
def isSpace (b : UInt8) : Bool := b = 32 || b = 9 || b = 13 || b = 10

/-- Skip white space. -/
def ws (s : Bytes) : Bytes := s.dropWhile isSpace

/-- Is it `0`-`9`? -/
def isDigit (b : UInt8) : Bool := decide (48 ≤ b.toNat) && decide (b.toNat ≤ 57)

/-- scanner.go `state1`/`state0`: the integer part without sign. -/
def intPart (s : Bytes) : Option (Bytes × Bytes) :=
  match s with
  | [] => none
  | c :: t =>
    if c = 48 then some ([c], t)
    else if isDigit c then some (c :: t.takeWhile isDigit, t.dropWhile isDigit)
    else none

/-- scanner.go `stateDot`/`stateDot0`: an optional fraction. -/
def fracPart (s : Bytes) : Option (Bytes × Bytes) :=
  match s with
  | 46 :: t => if (t.takeWhile isDigit).isEmpty then none else some (46 :: t.takeWhile isDigit, t.dropWhile isDigit)
  | _ => some ([], s)

/-- scanner.go `stateE`/`stateESign`/`stateE0`: an optional exponent. -/
def expPart (s : Bytes) : Option (Bytes × Bytes) :=
  match s with
  | [] => some ([], [])
  | c :: t =>
    if c = 101 ∨ c = 69 then
      let (sign, u) : Bytes × Bytes := match t with
        | d :: u => if d = 43 ∨ d = 45 then ([d], u) else ([], t)
        | [] => ([], [])
      if (u.takeWhile isDigit).isEmpty then none else some (c :: (sign ++ u.takeWhile isDigit), u.dropWhile isDigit)
    else some ([], s)

/-- scanner.go `stateNeg`, `state1`, ...: a number and the rest of the input. -/
def number (s : Bytes) : Option (Bytes × Bytes) :=
  let (sign, u) : Bytes × Bytes := match s with
    | 45 :: t => ([45], t)
    | _ => ([], s)
  match intPart u with
  | none => none
  | some (i, r1) =>
    match fracPart r1 with
    | none => none
    | some (f, r2) =>
      match expPart r2 with
      | none => none
      | some (x, r3) => some (sign ++ i ++ f ++ x, r3)

/-- decode.go `getu4`: four hexadecimal digits. -/
def getu4 : Bytes → Option (Nat × Bytes)
  | a :: b :: c :: d :: t =>
    match hexVal a, hexVal b, hexVal c, hexVal d with
    | some w, some x, some y, some z => some (((w * 16 + x) * 16 + y) * 16 + z, t)
    | _, _, _, _ => none
  | _ => none

/-- unicode/utf8 `EncodeRune` of a code point below 2^21. -/
def encodeRune (n : Nat) : Bytes :=
  if n < 0x80 then [UInt8.ofNat n]
  else if n < 0x800 then [UInt8.ofNat (0xC0 + n / 64), UInt8.ofNat (0x80 + n % 64)]
  else if n < 0x10000 then [UInt8.ofNat (0xE0 + n / 4096), UInt8.ofNat (0x80 + n / 64 % 64), UInt8.ofNat (0x80 + n % 64)]
  else [UInt8.ofNat (0xF0 + n / 262144), UInt8.ofNat (0x80 + n / 4096 % 64), UInt8.ofNat (0x80 + n / 64 % 64),
    UInt8.ofNat (0x80 + n % 64)]

/-- U+FFFD. -/
def replacement : Bytes := [0xEF, 0xBF, 0xBD]

/-- The escapes of one character (scanner.go `stateInStringEsc`). -/
def unesc (e : UInt8) : Option UInt8 :=
  if e = 34 ∨ e = 92 ∨ e = 47 then some e
  else if e = 98 then some 8
  else if e = 102 then some 12
  else if e = 110 then some 10
  else if e = 114 then some 13
  else if e = 116 then some 9
  else none

/-- Is `lo ≤ b ≤ hi`? -/
def within (lo hi : Nat) (b : UInt8) : Bool := decide (lo ≤ b.toNat) && decide (b.toNat ≤ hi)

/-- unicode/utf8 `DecodeRune`: the length of the valid sequence at the start, 0 if there is none. -/
def runeLen : Bytes → Nat
  | [] => 0
  | a :: t =>
    let n := a.toNat
    if n < 0x80 then 1
    else if 0xC2 ≤ n ∧ n ≤ 0xDF then
      match t with
      | b :: _ => if within 0x80 0xBF b then 2 else 0
      | _ => 0
    else if 0xE0 ≤ n ∧ n ≤ 0xEF then
      match t with
      | b :: c :: _ =>
        if within (if n = 0xE0 then 0xA0 else 0x80) (if n = 0xED then 0x9F else 0xBF) b && within 0x80 0xBF c then 3 else 0
      | _ => 0
    else if 0xF0 ≤ n ∧ n ≤ 0xF4 then
      match t with
      | b :: c :: d :: _ =>
        if within (if n = 0xF0 then 0x90 else 0x80) (if n = 0xF4 then 0x8F else 0xBF) b && within 0x80 0xBF c &&
          within 0x80 0xBF d then 4 else 0
      | _ => 0
    else 0

/-- decode.go `unquoteBytes`, case `\u`: the text of the escape and the rest; two surrogate halves make one rune, a lonely
one becomes U+FFFD. -/
def uEscape (u : Nat) (rest : Bytes) : Bytes × Bytes :=
  if 0xD800 ≤ u ∧ u < 0xE000 then
    match rest with
    | 92 :: 117 :: t =>
      match getu4 t with
      | some (v, t') =>
        if u < 0xDC00 ∧ 0xDC00 ≤ v ∧ v < 0xE000 then (encodeRune (0x10000 + (u - 0xD800) * 1024 + (v - 0xDC00)), t')
        else (replacement, rest)
      | none => (replacement, rest)
    | _ => (replacement, rest)
  else (encodeRune u, rest)

/-- scanner.go `stateInString*` and decode.go `unquoteBytes`: the rest of a string after the opening quote, decoded, and what
follows the closing quote.  The fuel is the length of the input. -/
def strBody : Nat → Bytes → Option (Bytes × Bytes)
  | 0, _ => none
  | _ + 1, [] => none
  | f + 1, c :: t =>
    if c = 34 then some ([], t)
    else if c < 32 then none
    else if c = 92 then
      match t with
      | [] => none
      | e :: t2 =>
        if e = 117 then
          match getu4 t2 with
          | none => none
          | some (u, t3) =>
            match strBody f (uEscape u t3).2 with
            | some (s, r) => some ((uEscape u t3).1 ++ s, r)
            | none => none
        else match unesc e with
          | none => none
          | some b =>
            match strBody f t2 with
            | some (s, r) => some (b :: s, r)
            | none => none
    else if runeLen (c :: t) = 0 then
      match strBody f t with
      | some (s, r) => some (replacement ++ s, r)
      | none => none
    else
      match strBody f ((c :: t).drop (runeLen (c :: t))) with
      | some (s, r) => some ((c :: t).take (runeLen (c :: t)) ++ s, r)
      | none => none

/-- A literal (scanner.go `stateT`, `stateTr`, ...). -/
def literal (word : Bytes) (v : Json) (s : Bytes) : Option (Json × Bytes) :=
  if s.take word.length = word then some (v, s.drop word.length) else none

/-- scanner.go `maxNestingDepth`. -/
def maxDepth : Nat := 10000

mutual
/-- scanner.go `stateBeginValue`: one value and the rest of the input; `depth` containers are open.  The first argument is fuel,
enough when it is twice the length of the input. -/
def value : Nat → Nat → Bytes → Option (Json × Bytes)
  | 0, _, _ => none
  | f + 1, depth, s =>
    match ws s with
    | [] => none
    | c :: t =>
      if c = 123 then
        if maxDepth ≤ depth then none
        else match ws t with
          | 125 :: r => some (.obj [], r)
          | _ =>
            match members f (depth + 1) t with
            | some (l, r) => some (.obj l, r)
            | none => none
      else if c = 91 then
        if maxDepth ≤ depth then none
        else match ws t with
          | 93 :: r => some (.arr [], r)
          | _ =>
            match elems f (depth + 1) t with
            | some (l, r) => some (.arr l, r)
            | none => none
      else if c = 34 then
        match strBody (t.length + 1) t with
        | some (u, r) => some (.str u, r)
        | none => none
      else if c = 116 then literal (ascii "true") (.bool true) (c :: t)
      else if c = 102 then literal (ascii "false") (.bool false) (c :: t)
      else if c = 110 then literal (ascii "null") .null (c :: t)
      else match number (c :: t) with
        | some (u, r) => some (.num u, r)
        | none => none
/-- The elements of a non-empty array up to and including the closing bracket. -/
def elems : Nat → Nat → Bytes → Option (List Json × Bytes)
  | 0, _, _ => none
  | f + 1, depth, s =>
    match value f depth s with
    | none => none
    | some (v, r) =>
      match ws r with
      | 44 :: r1 =>
        match elems f depth r1 with
        | some (l, r2) => some (v :: l, r2)
        | none => none
      | 93 :: r1 => some ([v], r1)
      | _ => none
/-- The members of a non-empty object up to and including the closing brace. -/
def members : Nat → Nat → Bytes → Option (List (Bytes × Json) × Bytes)
  | 0, _, _ => none
  | f + 1, depth, s =>
    match ws s with
    | 34 :: t =>
      match strBody (t.length + 1) t with
      | none => none
      | some (k, r) =>
        match ws r with
        | 58 :: r0 =>
          match value f depth r0 with
          | none => none
          | some (v, r1) =>
            match ws r1 with
            | 44 :: r2 =>
              match members f depth r2 with
              | some (l, r3) => some ((k, v) :: l, r3)
              | none => none
            | 125 :: r2 => some ([(k, v)], r2)
            | _ => none
        | _ => none
    | _ => none
end

/-- decode.go `Unmarshal`, `checkValid`: one value and nothing but white space after it. -/
def parse (s : Bytes) : Option Json :=
  match value (2 * s.length + 2) 0 s with
  | some (v, r) => if (ws r).isEmpty then some v else none
  | none => none

/-! ### Field names -/

/-- decode.go `foldName`: names are compared without regard to case (simple folding: the long s and the Kelvin sign count as s
and k). -/
def foldName : Bytes → Bytes
  | [] => []
  | 0xC5 :: 0xBF :: t => 115 :: foldName t
  | 0xE2 :: 0x84 :: 0xAA :: t => 107 :: foldName t
  | c :: t => (if 65 ≤ c ∧ c ≤ 90 then c + 32 else c) :: foldName t

end Json
end Tss
