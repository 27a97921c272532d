import Verif.Model.Json
/-
Model of encoding/json (Go 1.21, encode.go `appendString`) for a string of arbitrary bytes, as `ToJson` (/repo/eddsa.go:26-34)
uses it for error texts, which quote the caller's key.
-/
namespace Tss.Json
open Tss Text

/-- encode.go `appendString` without the quotes, HTML escaping on: an ASCII byte is escaped as in `esc`; a byte that does not begin
a valid UTF-8 sequence is written as the escape of U+FFFD; U+2028 and U+2029 are escaped; any other valid sequence is copied.
The first argument is fuel; the length of the text is enough. -/
def textBody : Nat → Bytes → Bytes
  | 0, _ => []
  | _ + 1, [] => []
  | f + 1, c :: t =>
    if c < 128 then esc c ++ textBody f t
    else if runeLen (c :: t) = 0 then ascii "\\ufffd" ++ textBody f t
    else if (c :: t).take (runeLen (c :: t)) = [0xE2, 0x80, 0xA8] then ascii "\\u2028" ++ textBody f ((c :: t).drop (runeLen (c :: t)))
    else if (c :: t).take (runeLen (c :: t)) = [0xE2, 0x80, 0xA9] then ascii "\\u2029" ++ textBody f ((c :: t).drop (runeLen (c :: t)))
    else (c :: t).take (runeLen (c :: t)) ++ textBody f ((c :: t).drop (runeLen (c :: t)))

/-- encoding/json of a string. -/
def text (s : Bytes) : Bytes := 34 :: (textBody s.length s ++ [34])

end Tss.Json
