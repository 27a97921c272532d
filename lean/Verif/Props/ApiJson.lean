import Verif.Props.Api
import Verif.Lemmas.JsonText
/-!
C105: what a reader of `ToJson` gets.  Error texts quote the caller's key, so they are arbitrary bytes.
-/
namespace Tss.Api
open Tss Text World Json

/-! ### Specification -/

/-- The UTF-8 form of a text (RFC 3629, Lean's library). -/
def spec.utf8 (l : List Char) : Bytes := l.flatMap String.utf8EncodeChar

/-- How a reader of UTF-8 sees arbitrary bytes: character by character; a byte that begins no character is seen as U+FFFD. -/
inductive spec.Reads : Bytes → List Char → Prop
  | nil : Reads [] []
  | char (c : Char) {s l} : Reads s l → Reads (String.utf8EncodeChar c ++ s) (c :: l)
  | bad (b : UInt8) {s l} : (∀ c, ¬ String.utf8EncodeChar c <+: b :: s) → Reads s l → Reads (b :: s) ('\uFFFD' :: l)

/-- One character of a JSON string (RFC 8259, section 7) and the character it stands for. -/
inductive spec.JsonChar : List Char → Char → Prop
  | plain (c : Char) : 32 ≤ c.toNat → c ≠ '"' → c ≠ '\\' → JsonChar [c] c
  | quote : JsonChar ['\\', '"'] '"'
  | backslash : JsonChar ['\\', '\\'] '\\'
  | newline : JsonChar ['\\', 'n'] '\n'
  | return : JsonChar ['\\', 'r'] '\r'
  | tab : JsonChar ['\\', 't'] '\t'
  | hex (c w x y z : Char) : c.toNat < 65536 → Nat.toDigits 16 (65536 + c.toNat) = ['1', w, x, y, z] →
      JsonChar ['\\', 'u', w, x, y, z] c

/-- The contents of a JSON string and the text it stands for. -/
inductive spec.JsonText : List Char → List Char → Prop
  | nil : JsonText [] []
  | cons {u t l} {c : Char} : JsonChar u c → JsonText t l → JsonText (u ++ t) (c :: l)

/-- The object a reader of a result finds. -/
def spec.execObject (ok : Bool) (err : List Char) (data : Option Bytes) : Json :=
  .obj [(ascii "ok", .bool ok), (ascii "error", .str (utf8 err)),
    (ascii "data", match data with | none => .null | some b => .str (b64Encode b))]

/-- The object a reader of a result without data finds. -/
def spec.plainObject (ok : Bool) (err : List Char) : Json := .obj [(ascii "ok", .bool ok), (ascii "error", .str (utf8 err))]

open spec

/-! ### Reading UTF-8 -/

local notation "enc" => String.utf8EncodeChar

theorem not_char {s : Bytes} (h : runeLen s = 0) (c : Char) : ¬ enc c <+: s := by
  rintro ⟨t, rfl⟩
  rw [runeLen_enc] at h
  exact enc_ne_nil c (List.length_eq_zero_iff.mp h)

theorem not_char_iff {s : Bytes} : (∀ c, ¬ enc c <+: s) ↔ runeLen s = 0 := by
  refine ⟨fun h => ?_, fun h c => not_char h c⟩
  by_contra hn
  obtain ⟨c, t, rfl⟩ := runeLen_char hn
  exact h c ⟨t, rfl⟩

/-- Induction over a text the way UTF-8 is read. -/
theorem reads_ind {P : Bytes → Prop} (h0 : P []) (h1 : ∀ (c : Char) s, P s → P (enc c ++ s))
    (h2 : ∀ b s, runeLen (b :: s) = 0 → P s → P (b :: s)) : ∀ s, P s := by
  intro s
  induction hn : s.length using Nat.strong_induction_on generalizing s with
  | _ n ih =>
    cases s with
    | nil => exact h0
    | cons b s =>
      by_cases hr : runeLen (b :: s) = 0
      · exact h2 b s hr (ih s.length (by simp at hn; omega) s rfl)
      · obtain ⟨c, t, e⟩ := runeLen_char hr
        rw [e]
        refine h1 c t (ih t.length ?_ t rfl)
        rw [← hn, e, List.length_append]
        have := List.length_pos_iff.mpr (enc_ne_nil c)
        omega

/-- C105. Every sequence of bytes is read in one way. -/
theorem C105_reads_one_way (s : Bytes) : ∃ l, Reads s l ∧ ∀ l', Reads s l' → l' = l := by
  induction s using reads_ind with
  | h0 =>
    refine ⟨[], .nil, fun l h => ?_⟩
    generalize hs : ([] : Bytes) = s at h
    cases h with
    | nil => rfl
    | char c h => exact absurd (List.append_eq_nil_iff.mp hs.symm).1 (enc_ne_nil c)
    | bad b _ _ => exact nomatch hs
  | h1 c s ih =>
    obtain ⟨l, h1, h2⟩ := ih
    refine ⟨c :: l, .char c h1, fun l' h => ?_⟩
    generalize hs : enc c ++ s = u at h
    cases h with
    | nil => exact absurd (List.append_eq_nil_iff.mp hs).1 (enc_ne_nil c)
    | char d h => obtain ⟨rfl, rfl⟩ := enc_prefix hs; rw [h2 _ h]
    | bad b hb _ => exact absurd ⟨s, hs⟩ (hb c)
  | h2 b s hr ih =>
    obtain ⟨l, h1, h2⟩ := ih
    refine ⟨'\uFFFD' :: l, .bad b (not_char_iff.mpr hr) h1, fun l' h => ?_⟩
    generalize hs : b :: s = u at h
    cases h with
    | nil => exact nomatch hs
    | char d h => exact absurd ⟨_, hs.symm⟩ (not_char hr d)
    | bad b' _ h => injection hs with e1 e2; subst e2; rw [h2 _ h]

/-- C105. A text in UTF-8 is read as itself. -/
theorem C105_reads_utf8 (l : List Char) : Reads (utf8 l) l := by
  induction l with
  | nil => exact .nil
  | cons c l ih => exact .char c ih

theorem reads_unique {s : Bytes} {l l' : List Char} (h : Reads s l) (h' : Reads s l') : l = l' := by
  obtain ⟨m, -, hm⟩ := C105_reads_one_way s
  rw [hm l h, hm l' h']

theorem utf8_inj {l l' : List Char} (h : utf8 l = utf8 l') : l = l' :=
  reads_unique (C105_reads_utf8 l) (h ▸ C105_reads_utf8 l')

/-! ### The characters written -/

/-- What is written for one character. -/
def piece (c : Char) : Bytes :=
  if c.val.toNat < 128 then esc (UInt8.ofNat c.val.toNat)
  else if c = '\u2028' then ascii "\\u2028"
  else if c = '\u2029' then ascii "\\u2029"
  else enc c

theorem textBody_char (f : Nat) (c : Char) (s : Bytes) : textBody (f + 1) (enc c ++ s) = piece c ++ textBody f s := by
  by_cases hc : c.val.toNat < 128
  · rw [enc_small hc]
    show textBody (f + 1) (_ :: s) = _
    conv_lhs => unfold textBody
    unfold piece
    rw [if_pos hc, if_pos (by rw [UInt8.lt_iff_toNat_lt, u8_of _ (by omega)]; exact hc)]
  · have hl := runeLen_enc c s
    obtain ⟨b, t, e, hb, -, h2⟩ := enc_big hc
    have h28 : (enc c = [0xE2, 0x80, 0xA8]) ↔ c = '\u2028' :=
      ⟨fun h => enc_inj (h.trans (by decide)), fun h => by subst h; decide⟩
    have h29 : (enc c = [0xE2, 0x80, 0xA9]) ↔ c = '\u2029' :=
      ⟨fun h => enc_inj (h.trans (by decide)), fun h => by subst h; decide⟩
    unfold piece
    rw [if_neg hc]
    have ht : (enc c ++ s).take (enc c).length = enc c := List.take_left' rfl
    have hd : (enc c ++ s).drop (enc c).length = s := List.drop_left' rfl
    generalize hx : enc c = x at *
    subst e
    rw [List.cons_append] at hl ht hd ⊢
    conv_lhs => unfold textBody
    rw [if_neg hb, hl, if_neg (by omega), ht, hd]
    simp only [h28, h29]
    split_ifs <;> rfl

theorem textBody_bad (f : Nat) (b : UInt8) (s : Bytes) (h : runeLen (b :: s) = 0) :
    textBody (f + 1) (b :: s) = ascii "\\ufffd" ++ textBody f s := by
  conv_lhs => unfold textBody
  have hb : ¬ b < 128 := fun hb => by rw [runeLen_ascii hb] at h; exact nomatch h
  rw [if_neg hb, if_pos h]

theorem strBody_fixed (c : Char) (w x y z : UInt8) (f : Nat) (t s r : Bytes) (hc : getu4 (w :: x :: y :: z :: t) = some (c.val.toNat, t))
    (h : strBody f t = some (s, r)) : strBody (f + 1) (92 :: 117 :: w :: x :: y :: z :: t) = some (enc c ++ s, r) := by
  unfold strBody
  rw [if_neg (by decide), if_neg (by decide), if_pos rfl]
  simp only
  have hu : uEscape c.val.toNat t = (enc c, t) := by
    have := char_val c
    unfold uEscape
    rw [if_neg (by omega), encodeRune_char]
  rw [if_pos trivial, hc]
  simp only
  rw [hu, h]

theorem strBody_piece (c : Char) (f : Nat) (t s r : Bytes) (h : strBody f t = some (s, r)) :
    strBody (f + 1) (piece c ++ t) = some (enc c ++ s, r) := by
  unfold piece
  split
  · next hc =>
    have hb : UInt8.ofNat c.val.toNat < 128 := by rw [UInt8.lt_iff_toNat_lt, u8_of _ (by omega)]; exact hc
    rw [strBody_esc _ hb f t s r h]
    rw [enc_small hc]; rfl
  split
  · next hc => subst hc; exact strBody_fixed '\u2028' 50 48 50 56 f t s r (by unfold getu4; rfl) h
  split
  · next hc => subst hc; exact strBody_fixed '\u2029' 50 48 50 57 f t s r (by unfold getu4; rfl) h
  · next h1 h2 h3 =>
    have hl := runeLen_enc c t
    have ht : (enc c ++ t).take (enc c).length = enc c := List.take_left' rfl
    have hd : (enc c ++ t).drop (enc c).length = t := List.drop_left' rfl
    obtain ⟨b, u, e, hb, -, h2⟩ := enc_big h1
    generalize hx : enc c = x at *
    subst e
    rw [List.cons_append] at hl ht hd ⊢
    have hbn : 128 ≤ b.toNat := by
      have : ¬ b.toNat < 128 := fun k => hb (UInt8.lt_iff_toNat_lt.mpr k)
      omega
    have ne : ∀ k : UInt8, k.toNat < 128 → b ≠ k := by rintro k hk rfl; omega
    unfold strBody
    rw [if_neg (ne 34 (by decide)), if_neg (by rw [UInt8.lt_iff_toNat_lt]; simp; omega), if_neg (ne 92 (by decide)), hl,
      if_neg (by simp), hd, h, ht]

theorem strBody_bad (f : Nat) (t s r : Bytes) (h : strBody f t = some (s, r)) :
    strBody (f + 1) (ascii "\\ufffd" ++ t) = some (enc '\uFFFD' ++ s, r) :=
  strBody_fixed '\uFFFD' 102 102 102 100 f t s r (by unfold getu4; rfl) h

theorem enc_pos (c : Char) : 1 ≤ (enc c).length := List.length_pos_iff.mpr (enc_ne_nil c)

/-- The string written is read back as what the bytes stand for. -/
theorem strBody_text {s : Bytes} {l : List Char} (h : Reads s l) : ∀ (f g : Nat) (rest : Bytes), s.length ≤ f → s.length < g →
    strBody g (textBody f s ++ 34 :: rest) = some (utf8 l, rest) := by
  induction h with
  | nil =>
    intro f g rest hf hg
    obtain ⟨g, rfl⟩ : ∃ k, g = k + 1 := ⟨g - 1, by simp at hg; omega⟩
    cases f <;> simp [textBody, strBody, utf8]
  | char c _ ih =>
    intro f g rest hf hg
    have := enc_pos c
    rw [List.length_append] at hf hg
    obtain ⟨f, rfl⟩ : ∃ k, f = k + 1 := ⟨f - 1, by omega⟩
    obtain ⟨g, rfl⟩ : ∃ k, g = k + 1 := ⟨g - 1, by omega⟩
    rw [textBody_char, List.append_assoc]
    exact strBody_piece c g _ _ _ (ih f g rest (by omega) (by omega))
  | bad b hb _ ih =>
    intro f g rest hf hg
    rw [List.length_cons] at hf hg
    obtain ⟨f, rfl⟩ : ∃ k, f = k + 1 := ⟨f - 1, by omega⟩
    obtain ⟨g, rfl⟩ : ∃ k, g = k + 1 := ⟨g - 1, by omega⟩
    rw [textBody_bad _ _ _ (not_char_iff.mp hb), List.append_assoc]
    exact strBody_bad g _ _ _ (ih f g rest (by omega) (by omega))

theorem piece_length (c : Char) : (enc c).length ≤ (piece c).length := by
  unfold piece
  split
  · next h =>
    rw [enc_small h]; exact esc_length _
  split
  · next h => subst h; decide
  split
  · next h => subst h; decide
  · exact le_rfl

theorem textBody_length (s : Bytes) : ∀ f, s.length ≤ f → s.length ≤ (textBody f s).length := by
  induction s using reads_ind with
  | h0 => intro f _; simp
  | h1 c s ih =>
    intro f hf
    have := enc_pos c
    rw [List.length_append] at hf
    obtain ⟨f, rfl⟩ : ∃ k, f = k + 1 := ⟨f - 1, by omega⟩
    rw [textBody_char, List.length_append, List.length_append]
    have := ih f (by omega)
    have := piece_length c
    omega
  | h2 b s hr ih =>
    intro f hf
    rw [List.length_cons] at hf
    obtain ⟨f, rfl⟩ : ∃ k, f = k + 1 := ⟨f - 1, by omega⟩
    rw [textBody_bad _ _ _ hr, List.length_append, List.length_cons]
    have := ih f (by omega)
    have : (ascii "\\ufffd").length = 6 := by decide
    omega

theorem strBody_text_full {s : Bytes} {l : List Char} (h : Reads s l) (rest : Bytes) :
    strBody ((textBody s.length s ++ 34 :: rest).length + 1) (textBody s.length s ++ 34 :: rest) = some (utf8 l, rest) := by
  apply strBody_text h _ _ _ le_rfl
  have := textBody_length s s.length le_rfl
  rw [List.length_append]
  omega

/-! ### Reading a result -/

theorem value_bool (f d : Nat) (b : Bool) (r : Bytes) : value (f + 1) d (jsonBool b ++ r) = some (.bool b, r) := by
  cases b
  · show value (f + 1) d (102 :: (ascii "alse" ++ r)) = _
    unfold value
    rw [ws_cons _ (by decide)]
    simp only
    rw [if_neg (by decide), if_neg (by decide), if_neg (by decide), if_neg (by decide), if_pos trivial]
    exact literal_append (ascii "false") r _
  · show value (f + 1) d (116 :: (ascii "rue" ++ r)) = _
    unfold value
    rw [ws_cons _ (by decide)]
    simp only
    rw [if_neg (by decide), if_neg (by decide), if_neg (by decide), if_pos trivial]
    exact literal_append (ascii "true") r _

theorem value_text (f d : Nat) {s : Bytes} {l : List Char} (h : Reads s l) (r : Bytes) :
    value (f + 1) d (Json.text s ++ r) = some (.str (utf8 l), r) := by
  have e : Json.text s ++ r = 34 :: (textBody s.length s ++ 34 :: r) := by simp [Json.text]
  rw [e]
  unfold value
  rw [ws_cons _ (by decide)]
  simp only
  rw [if_neg (by decide), if_neg (by decide), if_pos trivial, strBody_text_full h]

theorem b64_plain (b : Bytes) : ∀ c ∈ b64Encode b, c < 128 ∧ esc c = [c] := by
  have dig : ∀ n, n < 64 → b64Digit n < 128 ∧ esc (b64Digit n) = [b64Digit n] := by decide +kernel
  have pad : (61 : UInt8) < 128 ∧ esc 61 = [61] := by decide
  have lt : ∀ a : UInt8, a.toNat < 256 := fun a => a.toNat_lt
  fun_induction b64Encode b with
  | case1 => simp
  | case2 a =>
    have := lt a
    simp only [List.mem_cons, List.not_mem_nil, or_false, forall_eq_or_imp, forall_eq]
    exact ⟨dig _ (by omega), dig _ (by omega), pad, pad⟩
  | case3 a b =>
    have := lt a
    have := lt b
    simp only [List.mem_cons, List.not_mem_nil, or_false, forall_eq_or_imp, forall_eq]
    exact ⟨dig _ (by omega), dig _ (by omega), dig _ (by omega), pad⟩
  | case4 a b c t ih =>
    have := lt a
    have := lt b
    have := lt c
    simp only [List.mem_cons, forall_eq_or_imp]
    exact ⟨dig _ (by omega), dig _ (by omega), dig _ (by omega), dig _ (by omega), ih⟩

theorem value_data (f d : Nat) (o : Option Bytes) (r : Bytes) :
    value (f + 1) d (jsonBytes o ++ r) = some ((match o with | none => .null | some b => .str (b64Encode b)), r) := by
  cases o with
  | none =>
    show value (f + 1) d (110 :: (ascii "ull" ++ r)) = _
    unfold value
    rw [ws_cons _ (by decide)]
    simp only
    rw [if_neg (by decide), if_neg (by decide), if_neg (by decide), if_neg (by decide), if_neg (by decide), if_pos trivial]
    exact literal_append (ascii "null") r _
  | some b =>
    have e : jsonBytes (some b) ++ r = 34 :: ((b64Encode b).flatMap esc ++ 34 :: r) := by
      have : ∀ l : Bytes, (∀ c ∈ l, esc c = [c]) → l.flatMap esc = l := by
        intro l hl
        induction l with
        | nil => rfl
        | cons c l ih => rw [List.flatMap_cons, hl c (by simp), ih fun x hx => hl x (by simp [hx])]; rfl
      rw [this _ fun c hc => (b64_plain b c hc).2]
      simp [jsonBytes]
    rw [e]
    unfold value
    rw [ws_cons _ (by decide)]
    simp only
    rw [if_neg (by decide), if_neg (by decide), if_pos trivial, strBody_full _ _ fun c hc => (b64_plain b c hc).1]

/-- One member of an object whose name is plain. -/
theorem member (f d : Nat) (k v r : Bytes) (x : Json) (hk : ∀ c ∈ k, c < 128) (hp : k.flatMap esc = k)
    (hv : value f d (v ++ r) = some (x, r)) :
    members (f + 1) d (34 :: (k ++ 34 :: 58 :: (v ++ r))) =
      match ws r with
      | 44 :: r2 =>
        match members f d r2 with
        | some (l, r3) => some ((k, x) :: l, r3)
        | none => none
      | 125 :: r2 => some ([(k, x)], r2)
      | _ => none := by
  conv_lhs => unfold members
  rw [ws_cons _ (by decide)]
  simp only
  have := strBody_full k (58 :: (v ++ r)) hk
  rw [hp] at this
  rw [this]
  simp only
  rw [ws_cons _ (by decide)]
  simp only
  rw [hv]
  rfl

/-- C105. Reading the text of a result gives an object with the three fields: the flag, the error text as a reader of UTF-8 sees it,
and the data, null or in standard base64. -/
theorem C105_read_back (r : MpcExecResult) {l : List Char} (h : Reads r.err l) :
    Json.parse r.ToJson = some (execObject r.ok l r.data) := by
  obtain ⟨ok, err, data⟩ := r
  have e : MpcExecResult.ToJson ⟨ok, err, data⟩ = 123 :: (34 :: (ascii "ok" ++ 34 :: 58 :: (jsonBool ok ++ 44 ::
      (34 :: (ascii "error" ++ 34 :: 58 :: (Json.text err ++ 44 ::
      (34 :: (ascii "data" ++ 34 :: 58 :: (jsonBytes data ++ [125]))))))))) := by
    unfold MpcExecResult.ToJson
    simp [ascii]
  rw [e]
  unfold parse
  obtain ⟨f, hf⟩ : ∃ f, 2 * (MpcExecResult.ToJson ⟨ok, err, data⟩).length + 2 = f + 1 + 1 + 1 + 1 + 1 := by
    refine ⟨2 * (MpcExecResult.ToJson ⟨ok, err, data⟩).length - 3, ?_⟩
    have : 2 ≤ (MpcExecResult.ToJson ⟨ok, err, data⟩).length := by rw [e]; simp
    omega
  rw [← e, hf, e]
  unfold value
  rw [ws_cons _ (by decide)]
  simp only
  rw [if_pos trivial, if_neg (by decide), ws_cons _ (by decide)]
  rw [member _ _ (ascii "ok") (jsonBool ok) _ _ (by decide) (by decide) (value_bool _ _ _ _)]
  rw [ws_cons _ (by decide)]
  simp only
  rw [member _ _ (ascii "error") (Json.text err) _ _ (by decide) (by decide) (value_text _ _ h _)]
  rw [ws_cons _ (by decide)]
  simp only
  rw [member _ _ (ascii "data") (jsonBytes data) _ _ (by decide) (by decide) (value_data _ _ _ _)]
  rfl

/-- C105. The same for a result without data. -/
theorem C105_read_back_plain (r : MpcResult) {l : List Char} (h : Reads r.err l) :
    Json.parse r.ToJson = some (plainObject r.ok l) := by
  obtain ⟨ok, err⟩ := r
  have e : MpcResult.ToJson ⟨ok, err⟩ = 123 :: (34 :: (ascii "ok" ++ 34 :: 58 :: (jsonBool ok ++ 44 ::
      (34 :: (ascii "error" ++ 34 :: 58 :: (Json.text err ++ [125])))))) := by
    unfold MpcResult.ToJson
    simp [ascii]
  rw [e]
  unfold parse
  obtain ⟨f, hf⟩ : ∃ f, 2 * (MpcResult.ToJson ⟨ok, err⟩).length + 2 = f + 1 + 1 + 1 + 1 := by
    refine ⟨2 * (MpcResult.ToJson ⟨ok, err⟩).length - 2, ?_⟩
    have : 2 ≤ (MpcResult.ToJson ⟨ok, err⟩).length := by rw [e]; simp
    omega
  rw [← e, hf, e]
  unfold value
  rw [ws_cons _ (by decide)]
  simp only
  rw [if_pos trivial, if_neg (by decide), ws_cons _ (by decide)]
  rw [member _ _ (ascii "ok") (jsonBool ok) _ _ (by decide) (by decide) (value_bool _ _ _ _)]
  rw [ws_cons _ (by decide)]
  simp only
  rw [member _ _ (ascii "error") (Json.text err) _ _ (by decide) (by decide) (value_text _ _ h _)]
  rfl

/-! ### The text determines the result -/

theorem data_inj {a b : Option Bytes}
    (h : (match a with | none => Json.null | some b => .str (b64Encode b)) = (match b with | none => Json.null | some b => .str (b64Encode b))) :
    a = b := by
  cases a <;> cases b
  · rfl
  · exact nomatch h
  · exact nomatch h
  · next x y =>
    injection h with h
    have := congrArg b64Decode h
    rw [b64_round_trip, b64_round_trip] at this
    exact this

/-- C105. Two results with the same JSON text have the same flag and the same data, and their error texts look the same to a reader
of UTF-8. -/
theorem C105_text_determines {r s : MpcExecResult} (h : r.ToJson = s.ToJson) :
    r.ok = s.ok ∧ r.data = s.data ∧ ∀ l, Reads r.err l ↔ Reads s.err l := by
  obtain ⟨l, hl, ul⟩ := C105_reads_one_way r.err
  obtain ⟨m, hm, um⟩ := C105_reads_one_way s.err
  have := C105_read_back r hl
  rw [h, C105_read_back s hm] at this
  have := Option.some.inj this
  unfold execObject at this
  injection this with this
  simp only [List.cons.injEq, Prod.mk.injEq, Json.bool.injEq, Json.str.injEq, true_and, and_true] at this
  obtain ⟨h1, h2, h3⟩ := this
  have hml := utf8_inj h2
  subst hml
  exact ⟨h1.symm, (data_inj h3).symm, fun l' => ⟨fun k => ul l' k ▸ hm, fun k => um l' k ▸ hl⟩⟩

/-- C105. The same for results without data. -/
theorem C105_text_determines_plain {r s : MpcResult} (h : r.ToJson = s.ToJson) :
    r.ok = s.ok ∧ ∀ l, Reads r.err l ↔ Reads s.err l := by
  obtain ⟨l, hl, ul⟩ := C105_reads_one_way r.err
  obtain ⟨m, hm, um⟩ := C105_reads_one_way s.err
  have := C105_read_back_plain r hl
  rw [h, C105_read_back_plain s hm] at this
  have := Option.some.inj this
  unfold plainObject at this
  injection this with this
  simp only [List.cons.injEq, Prod.mk.injEq, Json.bool.injEq, Json.str.injEq, true_and, and_true] at this
  obtain ⟨h1, h2⟩ := this
  have hml := utf8_inj h2
  subst hml
  exact ⟨h1.symm, fun l' => ⟨fun k => ul l' k ▸ hm, fun k => um l' k ▸ hl⟩⟩

/-- C105. When the error texts are UTF-8, results with the same JSON text are equal. -/
theorem C105_injective {r s : MpcExecResult} {l m : List Char} (hr : r.err = utf8 l) (hs : s.err = utf8 m)
    (h : r.ToJson = s.ToJson) : r = s := by
  obtain ⟨h1, h2, h3⟩ := C105_text_determines h
  have : Reads s.err l := (h3 l).mp (hr ▸ C105_reads_utf8 l)
  have e : l = m := reads_unique this (hs ▸ C105_reads_utf8 m)
  obtain ⟨_, _, _⟩ := r
  obtain ⟨_, _, _⟩ := s
  simp only at h1 h2 hr hs
  subst h1 h2 e hs hr
  rfl

/-- C105. The same for results without data. -/
theorem C105_injective_plain {r s : MpcResult} {l m : List Char} (hr : r.err = utf8 l) (hs : s.err = utf8 m)
    (h : r.ToJson = s.ToJson) : r = s := by
  obtain ⟨h1, h3⟩ := C105_text_determines_plain h
  have : Reads s.err l := (h3 l).mp (hr ▸ C105_reads_utf8 l)
  have e : l = m := reads_unique this (hs ▸ C105_reads_utf8 m)
  obtain ⟨_, _⟩ := r
  obtain ⟨_, _⟩ := s
  simp only at h1 hr hs
  subst h1 e hs hr
  rfl

/-- C105 (deviation). Without that the text does not determine the result: calls with two different keys, both unknown, give
different results with the same JSON text. -/
theorem C105_bad_keys_look_alike (w : World) (h1 : w.kg [0xFF] = none) (h2 : w.kg [0xFE] = none) :
    ∃ r s, (KeygenRound2Exec w [0xFF]).1 = some r ∧ (KeygenRound2Exec w [0xFE]).1 = some s ∧ r ≠ s ∧ r.ToJson = s.ToJson := by
  refine ⟨⟨false, ascii "party not found: " ++ [0xFF], none⟩, ⟨false, ascii "party not found: " ++ [0xFE], none⟩, ?_, ?_,
    by decide, by decide +kernel⟩
  · unfold KeygenRound2Exec onKgExec Keygen.KeygenRound2Exec
    rw [Keygen.withParty_none _ h1]
    rfl
  · unfold KeygenRound2Exec onKgExec Keygen.KeygenRound2Exec
    rw [Keygen.withParty_none _ h2]
    rfl

/-- C105. A successful result is rendered with its bytes in standard base64, so a reader of the text gets them back. -/
theorem C105_success (b : Bytes) :
    MpcExecResult.ToJson ⟨true, [], some b⟩ = ascii "{\"ok\":true,\"error\":\"\",\"data\":\"" ++ b64Encode b ++ ascii "\"}" ∧
      b64Decode (b64Encode b) = some b := by
  refine ⟨?_, b64_round_trip b⟩
  unfold MpcExecResult.ToJson
  simp [jsonBool, jsonBytes, Json.text, textBody, ascii]

/-! ### The grammar -/

/-- The characters written for one character. -/
def pieceChars (c : Char) : List Char :=
  if c.val.toNat < 128 then (esc (UInt8.ofNat c.val.toNat)).map fun b => Char.ofNat b.toNat
  else if c = '\u2028' then ['\\', 'u', '2', '0', '2', '8']
  else if c = '\u2029' then ['\\', 'u', '2', '0', '2', '9']
  else [c]

/-- Characters that may stand in the written text: no control characters, not <, > and &, and no line separators of JavaScript. -/
def spec.Harmless (c : Char) : Prop := 32 ≤ c.toNat ∧ c ≠ '<' ∧ c ≠ '>' ∧ c ≠ '&' ∧ c ≠ '\u2028' ∧ c ≠ '\u2029'

instance (c : Char) : Decidable (Harmless c) := by unfold Harmless; infer_instance

theorem ascii_piece : ∀ n : Fin 128, let u := (esc (UInt8.ofNat n)).map fun b => Char.ofNat b.toNat
    utf8 u = esc (UInt8.ofNat n) ∧ (∀ d ∈ u, Harmless d) ∧
    (u = [Char.ofNat n] ∧ 32 ≤ n.val ∧ n.val ≠ 34 ∧ n.val ≠ 92 ∨ u = ['\\', '"'] ∧ n.val = 34 ∨ u = ['\\', '\\'] ∧ n.val = 92 ∨
      u = ['\\', 'n'] ∧ n.val = 10 ∨ u = ['\\', 'r'] ∧ n.val = 13 ∨ u = ['\\', 't'] ∧ n.val = 9 ∨
      u = ['\\', 'u', '0', '0', Nat.digitChar (n / 16), Nat.digitChar (n % 16)] ∧
        Nat.toDigits 16 (65536 + n) = ['1', '0', '0', Nat.digitChar (n / 16), Nat.digitChar (n % 16)]) := by
  decide +kernel

theorem char_ofNat (c : Char) : Char.ofNat c.val.toNat = c := Char.ofNat_toNat c

theorem piece_spec (c : Char) : piece c = utf8 (pieceChars c) ∧ JsonChar (pieceChars c) c ∧ ∀ d ∈ pieceChars c, Harmless d := by
  unfold piece pieceChars
  by_cases hc : c.val.toNat < 128
  · rw [if_pos hc, if_pos hc]
    have hn := char_ofNat c
    have hx : c.toNat = c.val.toNat := rfl
    obtain ⟨k1, k2, k3⟩ := ascii_piece ⟨c.val.toNat, hc⟩
    simp only at k1 k2 k3
    refine ⟨k1.symm, ?_, k2⟩
    rcases k3 with ⟨e, h1, h2, h3⟩ | ⟨e, h1⟩ | ⟨e, h1⟩ | ⟨e, h1⟩ | ⟨e, h1⟩ | ⟨e, h1⟩ | ⟨e, h1⟩
    · rw [e, hn]
      refine .plain c h1 ?_ ?_
      · rintro rfl; exact h2 rfl
      · rintro rfl; exact h3 rfl
    · rw [e, ← hn, h1]; exact .quote
    · rw [e, ← hn, h1]; exact .backslash
    · rw [e, ← hn, h1]; exact .newline
    · rw [e, ← hn, h1]; exact .return
    · rw [e, ← hn, h1]; exact .tab
    · rw [e]; exact .hex c _ _ _ _ (by rw [hx]; omega) h1
  · rw [if_neg hc, if_neg hc]
    split
    · next h => subst h; exact ⟨by decide, .hex _ _ _ _ _ (by decide) (by decide), by decide⟩
    split
    · next h => subst h; exact ⟨by decide, .hex _ _ _ _ _ (by decide) (by decide), by decide⟩
    · next h1 h2 =>
      have ne : ∀ d : Char, d.val.toNat < 128 → c ≠ d := by rintro d hd rfl; exact hc hd
      have h32 : 32 ≤ c.toNat := by show 32 ≤ c.val.toNat; omega
      refine ⟨by simp [utf8], .plain c h32 (ne _ (by decide)) (ne _ (by decide)), ?_⟩
      intro d hd
      rw [List.mem_singleton] at hd
      subst hd
      exact ⟨h32, ne _ (by decide), ne _ (by decide), ne _ (by decide), h1, h2⟩

theorem textBody_spec {s : Bytes} {l : List Char} (h : Reads s l) : ∀ f, s.length ≤ f →
    ∃ u, textBody f s = utf8 u ∧ JsonText u l ∧ ∀ d ∈ u, Harmless d := by
  induction h with
  | nil => intro f _; exact ⟨[], by cases f <;> rfl, .nil, by simp⟩
  | char c _ ih =>
    intro f hf
    have := enc_pos c
    rw [List.length_append] at hf
    obtain ⟨f, rfl⟩ : ∃ k, f = k + 1 := ⟨f - 1, by omega⟩
    obtain ⟨u, h1, h2, h3⟩ := ih f (by omega)
    obtain ⟨k1, k2, k3⟩ := piece_spec c
    refine ⟨pieceChars c ++ u, ?_, .cons k2 h2, ?_⟩
    · rw [textBody_char, k1, h1]; simp [utf8]
    · intro d hd
      exact (List.mem_append.mp hd).elim (k3 d) (h3 d)
  | bad b hb _ ih =>
    intro f hf
    rw [List.length_cons] at hf
    obtain ⟨f, rfl⟩ : ∃ k, f = k + 1 := ⟨f - 1, by omega⟩
    obtain ⟨u, h1, h2, h3⟩ := ih f (by omega)
    refine ⟨['\\', 'u', 'f', 'f', 'f', 'd'] ++ u, ?_, .cons (.hex _ _ _ _ _ (by decide) (by decide)) h2, ?_⟩
    · rw [textBody_bad _ _ _ (not_char_iff.mp hb), h1]
      have : utf8 (['\\', 'u', 'f', 'f', 'f', 'd'] ++ u) = utf8 ['\\', 'u', 'f', 'f', 'f', 'd'] ++ utf8 u := by simp [utf8]
      rw [this]
      rfl
    · intro d hd
      refine (List.mem_append.mp hd).elim ?_ (h3 d)
      have : ∀ d ∈ ['\\', 'u', 'f', 'f', 'f', 'd'], Harmless d := by decide
      exact this d

/-- C105. Whatever bytes the error text holds, it is written in UTF-8 as a JSON string (RFC 8259) standing for the text a reader of
UTF-8 sees, without control characters, without <, > and &, and without U+2028 and U+2029: the result can be embedded in HTML. -/
theorem C105_grammar {s : Bytes} {l : List Char} (h : Reads s l) :
    ∃ u, Json.text s = ascii "\"" ++ utf8 u ++ ascii "\"" ∧ JsonText u l ∧ ∀ d ∈ u, Harmless d := by
  obtain ⟨u, h1, h2, h3⟩ := textBody_spec h s.length le_rfl
  exact ⟨u, by unfold Json.text; rw [h1]; rfl, h2, h3⟩

example : MpcExecResult.ToJson ⟨false, ascii "party not found: \"a<b\"", none⟩ =
    ascii "{\"ok\":false,\"error\":\"party not found: \\\"a\\u003cb\\\"\",\"data\":null}" := by decide +kernel

example : MpcResult.ToJson ⟨false, [0xC3, 0xA9, 0xFF, 0xE2, 0x80, 0xA8, 0xEF, 0xBF, 0xBD]⟩ =
    ascii "{\"ok\":false,\"error\":\"" ++ [0xC3, 0xA9] ++ ascii "\\ufffd\\u2028" ++ [0xEF, 0xBF, 0xBD] ++ ascii "\"}" := by
  decide +kernel

example : Reads [0xC3, 0xA9, 0xFF] ['é', '\uFFFD'] :=
  .char 'é' (.bad 0xFF (not_char_iff.mpr (by decide)) .nil)

end Tss.Api
