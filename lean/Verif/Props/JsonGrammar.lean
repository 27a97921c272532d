import Verif.Lemmas.JsonPrefix
import Verif.Lemmas.JsonText
import Mathlib.Tactic.Ring
/-!
C130: the JSON reader reads exactly JSON: the specification is the grammar of RFC 8259 (with encoding/json's two choices: a byte
that is not UTF-8 and a lonely surrogate escape are read as U+FFFD) as inductive relations without fuel or order of
evaluation; the reader accepts a text with a value exactly when the grammar derives it, hence with one value only.
-/
namespace Tss.Json
open Tss Text

namespace gspec

/-- White space: blank, tab, carriage return, line feed. -/
def Ws (p : Bytes) : Prop := ∀ b ∈ p, b = 32 ∨ b = 9 ∨ b = 13 ∨ b = 10

/-- One or more decimal digits. -/
def Digits (s : Bytes) : Prop := s ≠ [] ∧ ∀ b ∈ s, 48 ≤ b.toNat ∧ b.toNat ≤ 57

/-- `int`: `0`, or digits that do not begin with `0`. -/
def Int (s : Bytes) : Prop := s = [48] ∨ Digits s ∧ s.head? ≠ some 48

/-- `frac`, optional. -/
def Frac (s : Bytes) : Prop := s = [] ∨ ∃ d, s = 46 :: d ∧ Digits d

/-- `exp`, optional. -/
def Exp (s : Bytes) : Prop :=
  s = [] ∨ ∃ e sg d, s = e :: (sg ++ d) ∧ (e = 101 ∨ e = 69) ∧ (sg = [] ∨ sg = [43] ∨ sg = [45]) ∧ Digits d

/-- A number: an optional minus sign, `int`, `frac`, `exp`. -/
def Number (s : Bytes) : Prop :=
  ∃ sg i f x, s = sg ++ (i ++ (f ++ x)) ∧ (sg = [] ∨ sg = [45]) ∧ Int i ∧ Frac f ∧ Exp x

/-- A hexadecimal digit, either case. -/
def HexDigit (b : UInt8) (v : Nat) : Prop :=
  (48 ≤ b.toNat ∧ b.toNat ≤ 57 ∧ v = b.toNat - 48) ∨ (97 ≤ b.toNat ∧ b.toNat ≤ 102 ∧ v = b.toNat - 87) ∨
    (65 ≤ b.toNat ∧ b.toNat ≤ 70 ∧ v = b.toNat - 55)

/-- Four hexadecimal digits. -/
def Hex4 (s : Bytes) (v : Nat) : Prop :=
  ∃ a b c d w x y z, s = [a, b, c, d] ∧ HexDigit a w ∧ HexDigit b x ∧ HexDigit c y ∧ HexDigit d z ∧
    v = 4096 * w + 256 * x + 16 * y + z

/-- The one-letter escapes: the letter after the backslash and the character it means. -/
def shortEscapes : List (UInt8 × UInt8) :=
  [(34, 34), (92, 92), (47, 47), (98, 8), (102, 12), (110, 10), (114, 13), (116, 9)]

/-- `Chars s u`: `s`, between two quotes, means the bytes `u`. -/
inductive Chars : Bytes → Bytes → Prop
  | nil : Chars [] []
  /-- a character other than a control character, quote or backslash, in UTF-8 -/
  | char {s u} (c : Char) : 32 ≤ c.val.toNat → c ≠ '"' → c ≠ '\\' → Chars s u →
      Chars (String.utf8EncodeChar c ++ s) (String.utf8EncodeChar c ++ u)
  /-- a byte that begins no character: U+FFFD -/
  | bad {s u} (b : UInt8) : 128 ≤ b.toNat → (∀ c : Char, ¬ String.utf8EncodeChar c <+: b :: s) → Chars s u →
      Chars (b :: s) (String.utf8EncodeChar '\uFFFD' ++ u)
  | short {s u} (e b : UInt8) : (e, b) ∈ shortEscapes → Chars s u → Chars (92 :: e :: s) (b :: u)
  /-- `\u` and four digits: the character of that number -/
  | uni {s u h} (c : Char) : Hex4 h c.val.toNat → Chars s u → Chars (92 :: 117 :: (h ++ s)) (String.utf8EncodeChar c ++ u)
  /-- a pair of surrogates: one character beyond U+FFFF -/
  | pair {s u h h' a b} (c : Char) : Hex4 h a → 0xD800 ≤ a → a < 0xDC00 → Hex4 h' b → 0xDC00 ≤ b → b < 0xE000 →
      c.val.toNat = 0x10000 + (a - 0xD800) * 0x400 + (b - 0xDC00) → Chars s u →
      Chars (92 :: 117 :: (h ++ 92 :: 117 :: (h' ++ s))) (String.utf8EncodeChar c ++ u)
  /-- a surrogate that is not the first of a pair: U+FFFD -/
  | lone {s u h a} : Hex4 h a → 0xD800 ≤ a → a < 0xE000 →
      (a < 0xDC00 → ∀ h' b, Hex4 h' b → 0xDC00 ≤ b → b < 0xE000 → ¬ (92 :: 117 :: h') <+: s) → Chars s u →
      Chars (92 :: 117 :: (h ++ s)) (String.utf8EncodeChar '\uFFFD' ++ u)

/-- What a text is read as: a value, or the inside of a non-empty array or object with its closing bracket. -/
inductive Kind where
  | value
  | elems
  | members

/-- `Reads k n s v`: `s`, white space in front allowed, is a `k` with the meaning `v`, nested at most `n` deep. -/
inductive Reads : Kind → Nat → Bytes → Json → Prop
  | null {n p} : Ws p → Reads .value n (p ++ ascii "null") .null
  | true {n p} : Ws p → Reads .value n (p ++ ascii "true") (.bool Bool.true)
  | false {n p} : Ws p → Reads .value n (p ++ ascii "false") (.bool Bool.false)
  | num {n p u} : Ws p → Number u → Reads .value n (p ++ u) (.num u)
  | str {n p s u} : Ws p → Chars s u → Reads .value n (p ++ 34 :: (s ++ [34])) (.str u)
  | arr0 {n p q} : Ws p → Ws q → Reads .value (n + 1) (p ++ 91 :: (q ++ [93])) (.arr [])
  | arr {n p s l} : Ws p → Reads .elems n s (.arr l) → Reads .value (n + 1) (p ++ 91 :: s) (.arr l)
  | obj0 {n p q} : Ws p → Ws q → Reads .value (n + 1) (p ++ 123 :: (q ++ [125])) (.obj [])
  | obj {n p s l} : Ws p → Reads .members n s (.obj l) → Reads .value (n + 1) (p ++ 123 :: s) (.obj l)
  | last {n s v q} : Reads .value n s v → Ws q → Reads .elems n (s ++ (q ++ [93])) (.arr [v])
  | next {n s v q t l} : Reads .value n s v → Ws q → Reads .elems n t (.arr l) →
      Reads .elems n (s ++ (q ++ 44 :: t)) (.arr (v :: l))
  | lastM {n p k k' q s v q'} : Ws p → Chars k k' → Ws q → Reads .value n s v → Ws q' →
      Reads .members n (p ++ 34 :: (k ++ 34 :: (q ++ 58 :: (s ++ (q' ++ [125]))))) (.obj [(k', v)])
  | nextM {n p k k' q s v q' t l} : Ws p → Chars k k' → Ws q → Reads .value n s v → Ws q' → Reads .members n t (.obj l) →
      Reads .members n (p ++ 34 :: (k ++ 34 :: (q ++ 58 :: (s ++ (q' ++ 44 :: t))))) (.obj ((k', v) :: l))

/-- A JSON text: one value, nested at most ten thousand deep, between white space. -/
def Text (s : Bytes) (v : Json) : Prop := ∃ p q, s = p ++ q ∧ Reads .value 10000 p v ∧ Ws q

end gspec

open gspec

/-- RFC 3629, in Lean's library. -/
local notation "enc" => String.utf8EncodeChar

/-! ### white space -/

theorem mem_tw {p : UInt8 → Bool} {b : UInt8} : ∀ {s : Bytes}, b ∈ s.takeWhile p → p b = true := by
  intro s
  induction s with
  | nil => intro h; cases h
  | cons c t ih =>
    intro h
    by_cases hc : p c = true
    · rw [List.takeWhile_cons_of_pos hc] at h
      rcases List.mem_cons.mp h with rfl | h
      · exact hc
      · exact ih h
    · rw [List.takeWhile_cons_of_neg hc] at h; cases h

theorem isSpace_iff {b : UInt8} : isSpace b = true ↔ b = 32 ∨ b = 9 ∨ b = 13 ∨ b = 10 := by
  simp [isSpace, or_assoc]

theorem ws_split (s : Bytes) : ∃ p, Ws p ∧ s = p ++ ws s := by
  refine ⟨s.takeWhile isSpace, fun b hb => ?_, (List.takeWhile_append_dropWhile).symm⟩
  exact isSpace_iff.mp (mem_tw hb)

theorem ws_pre {p : Bytes} (hp : Ws p) (s : Bytes) : ws (p ++ s) = ws s := by
  unfold ws
  exact List.dropWhile_append_of_pos fun b hb => isSpace_iff.mpr (hp b hb)

theorem ws_pre_cons {p : Bytes} (hp : Ws p) {c : UInt8} (s : Bytes) (hc : isSpace c = false) : ws (p ++ c :: s) = c :: s := by
  rw [ws_pre hp]; exact ws_cons s hc

/-! ### numbers -/

/-- What comes first, if anything, is `P`. -/
def Head (P : UInt8 → Prop) (r : Bytes) : Prop := ∀ c t, r = c :: t → P c

theorem isDigit_iff {b : UInt8} : isDigit b = true ↔ 48 ≤ b.toNat ∧ b.toNat ≤ 57 := by
  simp [isDigit]

theorem digits_take {d r : Bytes} (hd : ∀ b ∈ d, 48 ≤ b.toNat ∧ b.toNat ≤ 57) (hr : Head (fun c => isDigit c = false) r) :
    (d ++ r).takeWhile isDigit = d ∧ (d ++ r).dropWhile isDigit = r := by
  have h : ∀ b ∈ d, isDigit b = true := fun b hb => isDigit_iff.mpr (hd b hb)
  rw [List.takeWhile_append_of_pos h, List.dropWhile_append_of_pos h]
  cases r with
  | nil => simp
  | cons c t => simp [hr c t rfl]

theorem take_digits (t : Bytes) : (t.takeWhile isDigit).isEmpty = false → Digits (t.takeWhile isDigit) := by
  intro h
  exact ⟨by simpa using h, fun b hb => isDigit_iff.mp (mem_tw hb)⟩

theorem intPart_sound {s i r : Bytes} (h : intPart s = some (i, r)) : s = i ++ r ∧ gspec.Int i := by
  unfold intPart at h
  split at h
  · cases h
  next c t =>
  split at h
  · next hc => cases h; exact ⟨rfl, .inl (by rw [hc])⟩
  next hc =>
  split at h
  · next hd =>
    cases h
    refine ⟨by simp, .inr ⟨⟨by simp, ?_⟩, by simpa using hc⟩⟩
    intro b hb
    rcases List.mem_cons.mp hb with rfl | hb
    · exact isDigit_iff.mp hd
    · exact isDigit_iff.mp (mem_tw hb)
  · cases h

theorem intPart_complete {i r : Bytes} (h : gspec.Int i) (hr : Head (fun c => isDigit c = false) r) : intPart (i ++ r) = some (i, r) := by
  rcases h with rfl | ⟨⟨h0, hd⟩, hh⟩
  · rfl
  · cases i with
    | nil => exact absurd rfl h0
    | cons c t =>
      have hc : c ≠ 48 := by simpa using hh
      have h1 : isDigit c = true := isDigit_iff.mpr (hd c (by simp))
      obtain ⟨h2, h3⟩ := digits_take (fun b hb => hd b (by simp [hb])) hr (d := t)
      simp only [List.cons_append, intPart, if_neg hc, h1, if_true, h2, h3]

theorem fracPart_sound {s f r : Bytes} (h : fracPart s = some (f, r)) : s = f ++ r ∧ Frac f := by
  unfold fracPart at h
  split at h
  · next t =>
    split at h
    · cases h
    · next he =>
      cases h
      exact ⟨by simp, .inr ⟨_, rfl, take_digits t (by simpa using he)⟩⟩
  · cases h; exact ⟨rfl, .inl rfl⟩

theorem fracPart_complete {f r : Bytes} (h : Frac f) (hr : Head (fun c => isDigit c = false ∧ c ≠ 46) r) :
    fracPart (f ++ r) = some (f, r) := by
  rcases h with rfl | ⟨d, rfl, hd⟩
  · unfold fracPart
    split
    · next t ht => exact absurd rfl (hr _ _ ht).2
    · rfl
  · obtain ⟨h2, h3⟩ := digits_take hd.2 (fun c t e => (hr c t e).1) (r := r)
    have h4 : d.isEmpty = false := by simpa using hd.1
    simp [fracPart, h2, h3, h4]

theorem expPart_sound {s x r : Bytes} (h : expPart s = some (x, r)) : s = x ++ r ∧ Exp x := by
  cases s with
  | nil => cases h; exact ⟨rfl, .inl rfl⟩
  | cons c t =>
    unfold expPart at h
    simp only at h
    split at h
    · next hc =>
      cases t with
      | nil => simp at h
      | cons d u =>
        simp only at h
        by_cases hd : d = 43 ∨ d = 45
        · simp only [if_pos hd] at h
          split at h
          · cases h
          · next he =>
            cases h
            refine ⟨by simp, .inr ⟨c, [d], _, rfl, hc, ?_, take_digits u (by simpa using he)⟩⟩
            rcases hd with rfl | rfl <;> simp
        · simp only [if_neg hd] at h
          split at h
          · cases h
          · next he =>
            cases h
            refine ⟨?_, .inr ⟨c, [], _, rfl, hc, .inl rfl, take_digits (d :: u) (by simpa using he)⟩⟩
            rw [List.nil_append, List.cons_append, List.takeWhile_append_dropWhile]
    · cases h; exact ⟨rfl, .inl rfl⟩

theorem expPart_complete {x r : Bytes} (h : Exp x) (hr : Head (fun c => isDigit c = false ∧ c ≠ 101 ∧ c ≠ 69) r) :
    expPart (x ++ r) = some (x, r) := by
  rcases h with rfl | ⟨e, sg, d, rfl, he, hs, hd⟩
  · cases r with
    | nil => rfl
    | cons c t =>
      obtain ⟨_, h1, h2⟩ := hr c t rfl
      simp [expPart, h1, h2]
  · obtain ⟨h2, h3⟩ := digits_take hd.2 (fun c t e => (hr c t e).1) (r := r)
    have h4 : d.isEmpty = false := by simpa using hd.1
    rcases hs with rfl | rfl | rfl
    · cases d with
      | nil => simp at h4
      | cons b d =>
        have hb := hd.2 b (by simp)
        have hn : ¬ (b = 43 ∨ b = 45) := by
          rintro (rfl | rfl)
          · exact absurd hb.1 (by decide)
          · exact absurd hb.1 (by decide)
        simp only [List.nil_append, List.cons_append] at h2 h3 ⊢
        unfold expPart
        simp only [if_pos he, if_neg hn, h2, h3]
        simp
    · simp [expPart, he, h2, h3, h4]
    · simp [expPart, he, h2, h3, h4]

theorem number_sound {s u r : Bytes} (h : number s = some (u, r)) : s = u ++ r ∧ Number u := by
  have key : ∀ sg w, s = sg ++ w → (sg = [] ∨ sg = [45]) →
      (match intPart w with
      | none => none
      | some (i, r1) =>
        match fracPart r1 with
        | none => none
        | some (f, r2) =>
          match expPart r2 with
          | none => none
          | some (x, r3) => some (sg ++ i ++ f ++ x, r3)) = some (u, r) → s = u ++ r ∧ Number u := by
    intro sg w hs hsg h
    split at h
    · cases h
    next i r1 h1 =>
    split at h
    · cases h
    next f r2 h2 =>
    split at h
    · cases h
    next x r3 h3 =>
    cases h
    obtain ⟨rfl, a1⟩ := intPart_sound h1
    obtain ⟨rfl, a2⟩ := fracPart_sound h2
    obtain ⟨rfl, a3⟩ := expPart_sound h3
    exact ⟨by rw [hs]; simp, sg, i, f, x, by simp, hsg, a1, a2, a3⟩
  unfold number at h
  split at h
  next sg w heq =>
  split at heq
  · cases heq; exact key _ _ rfl (.inr rfl) h
  · cases heq; exact key _ _ rfl (.inl rfl) h

/-- What may follow a value in a text: nothing, white space, a comma or a closing bracket. -/
def Follow : Bytes → Prop := Head fun c => isSpace c = true ∨ c = 44 ∨ c = 93 ∨ c = 125

theorem Follow.head {r : Bytes} (h : Follow r) : Head (fun c => isDigit c = false ∧ c ≠ 46 ∧ c ≠ 101 ∧ c ≠ 69) r := by
  intro c t e
  have h : isSpace c = true ∨ c = 44 ∨ c = 93 ∨ c = 125 := h c t e
  rw [isSpace_iff] at h
  rcases h with (rfl | rfl | rfl | rfl) | rfl | rfl | rfl <;> decide

theorem number_complete {u r : Bytes} (h : Number u) (hr : Follow r) : number (u ++ r) = some (u, r) := by
  obtain ⟨sg, i, f, x, rfl, hsg, hi, hf, hx⟩ := h
  have hr' := hr.head
  have e1 : expPart (x ++ r) = some (x, r) := expPart_complete hx fun c t e => ⟨(hr' c t e).1, (hr' c t e).2.2⟩
  have hx' : Head (fun c => isDigit c = false ∧ c ≠ 46) (x ++ r) := by
    intro c t e
    rcases hx with rfl | ⟨ec, sg', d, rfl, hec, _, _⟩
    · exact ⟨(hr' c t e).1, (hr' c t e).2.1⟩
    · rw [List.cons_append, List.cons.injEq] at e
      rw [← e.1]
      rcases hec with rfl | rfl <;> decide
  have e2 : fracPart (f ++ (x ++ r)) = some (f, x ++ r) := fracPart_complete hf hx'
  have hf' : Head (fun c => isDigit c = false) (f ++ (x ++ r)) := by
    intro c t e
    rcases hf with rfl | ⟨d, rfl, _⟩
    · exact (hx' c t e).1
    · rw [List.cons_append, List.cons.injEq] at e
      rw [← e.1]; decide
  have e3 : intPart (i ++ (f ++ (x ++ r))) = some (i, f ++ (x ++ r)) := intPart_complete hi hf'
  have hne : ∀ t, i ++ (f ++ (x ++ r)) ≠ 45 :: t := by
    intro t e
    rcases hi with rfl | ⟨⟨h0, hd⟩, _⟩
    · cases e
    · cases i with
      | nil => exact absurd rfl h0
      | cons b i =>
        rw [List.cons_append, List.cons.injEq] at e
        have := hd b (by simp)
        rw [e.1] at this
        exact absurd this.1 (by decide)
  rcases hsg with rfl | rfl
  · simp only [List.nil_append, List.append_assoc]
    unfold number
    split
    next sg w heq =>
    split at heq
    · next t ht => exact absurd ht (hne t)
    · cases heq
      simp [e3, e2, e1]
  · simp only [List.cons_append, List.nil_append, List.append_assoc]
    simp [number, e3, e2, e1]

theorem number_head {u : Bytes} (h : Number u) : ∃ c t, u = c :: t ∧ (c = 45 ∨ 48 ≤ c.toNat ∧ c.toNat ≤ 57) := by
  obtain ⟨sg, i, f, x, rfl, hsg, hi, -, -⟩ := h
  rcases hsg with rfl | rfl
  · rcases hi with rfl | ⟨⟨h0, hd⟩, -⟩
    · exact ⟨48, _, rfl, .inr (by decide)⟩
    · cases i with
      | nil => exact absurd rfl h0
      | cons c t => exact ⟨c, _, rfl, .inr (hd c (by simp))⟩
  · exact ⟨45, _, rfl, .inl rfl⟩

/-! ### strings -/

theorem hexVal_iff {b : UInt8} {v : Nat} : hexVal b = some v ↔ HexDigit b v := by
  have key : ∀ n : Fin 256, hexVal (UInt8.ofNat n.val) = (if 48 ≤ n.val ∧ n.val ≤ 57 then some (n.val - 48)
      else if 97 ≤ n.val ∧ n.val ≤ 102 then some (n.val - 87) else if 65 ≤ n.val ∧ n.val ≤ 70 then some (n.val - 55) else none) := by
    decide +kernel
  revert v
  refine u8_cases (fun b => ∀ {v : Nat}, hexVal b = some v ↔ HexDigit b v) ?_ b
  intro n v
  rw [key n]
  unfold HexDigit
  rw [u8_of _ n.isLt]
  split
  · simp only [Option.some.injEq]; omega
  split
  · simp only [Option.some.injEq]; omega
  split
  · simp only [Option.some.injEq]; omega
  · constructor
    · intro h; cases h
    · intro h; omega

theorem getu4_sound {s r : Bytes} {v : Nat} (h : getu4 s = some (v, r)) : ∃ q, s = q ++ r ∧ Hex4 q v ∧ q.length = 4 := by
  unfold getu4 at h
  split at h
  · next a b c d t =>
    split at h
    · next w x y z h1 h2 h3 h4 =>
      cases h
      exact ⟨[a, b, c, d], rfl, ⟨a, b, c, d, w, x, y, z, rfl, hexVal_iff.mp h1, hexVal_iff.mp h2, hexVal_iff.mp h3,
        hexVal_iff.mp h4, by ring⟩, rfl⟩
    · cases h
  · cases h

theorem getu4_complete {q : Bytes} {v : Nat} (h : Hex4 q v) (r : Bytes) : getu4 (q ++ r) = some (v, r) := by
  obtain ⟨a, b, c, d, w, x, y, z, rfl, h1, h2, h3, h4, rfl⟩ := h
  simp only [List.cons_append, List.nil_append, getu4, hexVal_iff.mpr h1, hexVal_iff.mpr h2, hexVal_iff.mpr h3, hexVal_iff.mpr h4,
    Option.some.injEq, Prod.mk.injEq, and_true]
  ring

theorem hex4_noquote {q : Bytes} {v : Nat} (h : Hex4 q v) : (34 : UInt8) ∉ q := by
  obtain ⟨a, b, c, d, w, x, y, z, rfl, h1, h2, h3, h4, -⟩ := h
  have k : ∀ {e : UInt8} {n : Nat}, HexDigit e n → ¬ 34 = e := by
    rintro e n h rfl
    have := hexVal_iff.mpr h
    exact absurd this (by rw [show hexVal 34 = none by decide]; simp)
  simp [k h1, k h2, k h3, k h4]

theorem hex4_lt {q : Bytes} {v : Nat} (h : Hex4 q v) : v < 0x10000 := by
  obtain ⟨a, b, c, d, w, x, y, z, rfl, h1, h2, h3, h4, rfl⟩ := h
  unfold HexDigit at h1 h2 h3 h4
  omega

theorem unesc_iff {e b : UInt8} : unesc e = some b ↔ (e, b) ∈ shortEscapes := by
  constructor
  · intro h
    unfold unesc at h
    split at h
    · next he =>
      cases h
      rcases he with rfl | rfl | rfl <;> simp [shortEscapes]
    split at h
    · next he => cases h; subst he; simp [shortEscapes]
    split at h
    · next he => cases h; subst he; simp [shortEscapes]
    split at h
    · next he => cases h; subst he; simp [shortEscapes]
    split at h
    · next he => cases h; subst he; simp [shortEscapes]
    split at h
    · next he => cases h; subst he; simp [shortEscapes]
    cases h
  · intro h
    have : ∀ p ∈ shortEscapes, unesc p.1 = some p.2 := by decide
    exact this _ h

theorem replacement_eq : replacement = enc '\uFFFD' := by decide

/-- A list without a quote that begins `t "…` begins `t`. -/
theorem prefix_quote : ∀ {l t r : Bytes}, l <+: t ++ 34 :: r → (34 : UInt8) ∉ l → l <+: t
  | [], _, _, _, _ => List.nil_prefix
  | a :: l, [], r, h, hn => by
    obtain ⟨x, hx⟩ := h
    rw [List.cons_append, List.nil_append, List.cons.injEq] at hx
    exact absurd (by simp [hx.1]) hn
  | a :: l, b :: t, r, h, hn => by
    rw [List.cons_append, List.cons_prefix_cons] at h
    exact List.cons_prefix_cons.mpr ⟨h.1, prefix_quote h.2 fun hm => hn (List.mem_cons_of_mem _ hm)⟩

theorem enc_noquote {c : Char} (hc : c ≠ '"') : (34 : UInt8) ∉ enc c := by
  rcases enc_head c with ⟨b, e, hb⟩ | ⟨b, t, e, hb, ht, -⟩
  · rw [e]
    intro h
    have : b = 34 := (by simpa using h : 34 = b).symm
    subst this
    exact hc (enc_inj (by rw [e]; decide))
  · rw [e]
    intro h
    rcases List.mem_cons.mp h with h | h
    · rw [← h] at hb; exact absurd hb (by decide)
    · exact absurd (ht _ h) (by decide)

theorem strBody_sound : ∀ (f : Nat) (t u r : Bytes), strBody f t = some (u, r) → ∃ s, t = s ++ 34 :: r ∧ Chars s u
  | 0, _, _, _, h => by cases h
  | f + 1, [], _, _, h => by cases h
  | f + 1, c :: t, u, r, h => by
    unfold strBody at h
    split at h
    · next hc => cases h; subst hc; exact ⟨[], rfl, .nil⟩
    next hc =>
    split at h
    · cases h
    next hc32 =>
    split at h
    · next h92 =>
      subst h92
      split at h
      · cases h
      next e t2 =>
      split at h
      · next he =>
        subst he
        split at h
        · cases h
        next n t3 hg =>
        split at h
        next s' r' hs =>
          cases h
          obtain ⟨q, rfl, hq, hql⟩ := getu4_sound hg
          obtain ⟨m, hm, hch⟩ := strBody_sound f _ _ _ hs
          by_cases hw : 0xD800 ≤ n ∧ n < 0xE000
          · have lone : (n < 0xDC00 → ∀ h' b, Hex4 h' b → 0xDC00 ≤ b → b < 0xE000 → ¬ (92 :: 117 :: h') <+: t3) →
                uEscape n t3 = (replacement, t3) →
                ∃ s, 92 :: 117 :: (q ++ t3) = s ++ 34 :: r ∧ Chars s ((uEscape n t3).1 ++ s') := by
              intro hno e
              rw [e] at hm ⊢
              simp only at hm ⊢
              subst hm
              refine ⟨92 :: 117 :: (q ++ m), by simp, ?_⟩
              rw [replacement_eq]
              refine .lone hq hw.1 hw.2 (fun hlt h' b hh hb hb' hpre => hno hlt h' b hh hb hb' ?_) hch
              exact hpre.trans (List.prefix_append _ _)
            by_cases hp : ∃ t, t3 = 92 :: 117 :: t
            · obtain ⟨t4, rfl⟩ := hp
              cases hg2 : getu4 t4 with
              | none =>
                refine lone ?_ (by rw [uEscape_pair hw, hg2])
                intro _ h' b hh _ _ hpre
                obtain ⟨x, hx⟩ := hpre
                simp only [List.cons_append, List.cons.injEq, true_and] at hx
                rw [← hx, getu4_complete hh] at hg2
                cases hg2
              | some p =>
                obtain ⟨v, t5⟩ := p
                by_cases hv : n < 0xDC00 ∧ 0xDC00 ≤ v ∧ v < 0xE000
                · have e : uEscape n (92 :: 117 :: t4) = (encodeRune (0x10000 + (n - 0xD800) * 1024 + (v - 0xDC00)), t5) := by
                    rw [uEscape_pair hw, hg2]; simp only [if_pos hv]
                  rw [e] at hm ⊢
                  simp only at hm ⊢
                  obtain ⟨q', rfl, hq', -⟩ := getu4_sound hg2
                  subst hm
                  obtain ⟨c, hc⟩ := mkChar (0x10000 + (n - 0xD800) * 1024 + (v - 0xDC00)) (by right; omega)
                  refine ⟨92 :: 117 :: (q ++ 92 :: 117 :: (q' ++ m)), by simp, ?_⟩
                  rw [← hc, encodeRune_char]
                  exact .pair c hq hw.1 hv.1 hq' hv.2.1 hv.2.2 hc hch
                · refine lone ?_ (by rw [uEscape_pair hw, hg2]; simp only [if_neg hv])
                  intro hlt h' b hh hb hb' hpre
                  obtain ⟨x, hx⟩ := hpre
                  simp only [List.cons_append, List.cons.injEq, true_and] at hx
                  rw [← hx, getu4_complete hh] at hg2
                  cases hg2
                  exact hv ⟨hlt, hb, hb'⟩
            · refine lone ?_ (uEscape_plain hw fun t e => hp ⟨t, e⟩)
              intro _ h' b hh _ _ hpre
              obtain ⟨x, hx⟩ := hpre
              exact hp ⟨h' ++ x, by rw [← hx]; simp⟩
          · have e : uEscape n t3 = (encodeRune n, t3) := by unfold uEscape; rw [if_neg hw]
            rw [e] at hm ⊢
            simp only at hm ⊢
            subst hm
            obtain ⟨c, hc⟩ := mkChar n (by have := hex4_lt hq; omega)
            refine ⟨92 :: 117 :: (q ++ m), by simp, ?_⟩
            rw [← hc, encodeRune_char]
            rw [← hc] at hq
            exact .uni c hq hch
        · cases h
      · split at h
        · cases h
        next b hb =>
        split at h
        · next s' r' hs =>
          cases h
          obtain ⟨m, rfl, hch⟩ := strBody_sound f _ _ _ hs
          exact ⟨92 :: e :: m, rfl, .short e b (unesc_iff.mp hb) hch⟩
        · cases h
    next h92 =>
    have hc32' : 32 ≤ c.toNat := by
      have := UInt8.lt_iff_toNat_lt.not.mp hc32
      have e : (32 : UInt8).toNat = 32 := rfl
      omega
    split at h
    · next hz =>
      split at h
      · next s' r' hs =>
        cases h
        obtain ⟨m, rfl, hch⟩ := strBody_sound f _ _ _ hs
        rw [replacement_eq]
        have hbig : 128 ≤ c.toNat := by
          by_contra hlt
          have := runeLen_ascii (b := c) (UInt8.lt_iff_toNat_lt.mpr (by show c.toNat < 128; omega)) (m ++ 34 :: r)
          rw [this] at hz
          cases hz
        refine ⟨c :: m, rfl, .bad c hbig (fun d hd => ?_) hch⟩
        obtain ⟨x, hx⟩ := hd
        have e : runeLen (c :: (m ++ 34 :: r)) = (enc d).length := by
          rw [← List.cons_append, ← hx, List.append_assoc, runeLen_enc]
        rw [hz] at e
        exact enc_ne_nil d (List.length_eq_zero_iff.mp e.symm)
      · cases h
    · next hz =>
      split at h
      · next s' r' hs =>
        cases h
        obtain ⟨d, x, hx⟩ := runeLen_char hz
        rw [hx, runeLen_enc, List.drop_left] at hs
        rw [hx, runeLen_enc, List.take_left]
        obtain ⟨m, rfl, hch⟩ := strBody_sound f _ _ _ hs
        refine ⟨enc d ++ m, by simp, .char d ?_ ?_ ?_ hch⟩
        · by_contra hlt
          rw [enc_small (by omega), List.cons_append, List.cons.injEq] at hx
          rw [hx.1, u8_of _ (by omega)] at hc32'
          exact hlt hc32'
        · rintro rfl
          rw [show enc '"' = [34] by decide, List.cons_append, List.cons.injEq] at hx
          exact hc hx.1
        · rintro rfl
          rw [show enc '\\' = [92] by decide, List.cons_append, List.cons.injEq] at hx
          exact h92 hx.1
      · cases h

theorem strBody_complete {s u : Bytes} (h : Chars s u) : ∀ (f : Nat) (r : Bytes), s.length < f →
    strBody f (s ++ 34 :: r) = some (u, r) := by
  induction h with
  | nil =>
    intro f r hf
    obtain ⟨f, rfl⟩ : ∃ k, f = k + 1 := ⟨f - 1, by omega⟩
    simp [strBody]
  | @char s u c h32 h34 h92 _ ih =>
    intro f r hf
    obtain ⟨f, rfl⟩ : ∃ k, f = k + 1 := ⟨f - 1, by omega⟩
    have hlen : 1 ≤ (enc c).length := by
      have := enc_ne_nil c
      cases he : enc c with
      | nil => exact absurd he this
      | cons => simp
    rw [List.length_append] at hf
    have ih' := ih f r (by omega)
    have hrl := runeLen_enc c (s ++ 34 :: r)
    have ht : (enc c ++ (s ++ 34 :: r)).take (enc c).length = enc c := List.take_left
    have hd : (enc c ++ (s ++ 34 :: r)).drop (enc c).length = s ++ 34 :: r := List.drop_left
    rw [List.append_assoc]
    cases he : enc c with
    | nil => rw [he] at hlen; simp at hlen
    | cons a l =>
      rw [he] at hrl ht hd hlen
      have ha : ¬ a = 34 ∧ ¬ a < 32 ∧ ¬ a = 92 := by
        rcases enc_head c with ⟨b, e, hb⟩ | ⟨b, t, e, hb, -, -⟩
        · have hsm : c.val.toNat < 128 := by
            by_contra hge
            obtain ⟨b', t', e', hb', -⟩ := enc_big hge
            rw [e] at e'; cases e'; exact hb' hb
          have e2 := enc_small hsm
          rw [he, List.cons.injEq] at e2
          refine ⟨?_, ?_, ?_⟩
          · intro k
            exact h34 (enc_inj (by rw [he, e2.2, k]; decide))
          · intro k
            rw [e2.1] at k
            have := UInt8.lt_iff_toNat_lt.mp k
            rw [u8_of _ (by omega)] at this
            exact absurd this (by show ¬ _ < 32; omega)
          · intro k
            exact h92 (enc_inj (by rw [he, e2.2, k]; decide))
        · rw [he, List.cons.injEq] at e
          rw [← e.1] at hb
          refine ⟨?_, ?_, ?_⟩
          · rintro rfl; exact hb (by decide)
          · intro k
            exact hb (UInt8.lt_iff_toNat_lt.mpr (lt_of_lt_of_le (UInt8.lt_iff_toNat_lt.mp k) (by decide)))
          · rintro rfl; exact hb (by decide)
      simp only [List.cons_append] at hrl ht hd ⊢
      unfold strBody
      rw [if_neg ha.1, if_neg ha.2.1, if_neg ha.2.2, hrl, if_neg (by omega), hd, ht, ih']
      simp
  | @bad s u b hb hno _ ih =>
    intro f r hf
    obtain ⟨f, rfl⟩ : ∃ k, f = k + 1 := ⟨f - 1, by omega⟩
    simp only [List.length_cons] at hf
    have hz : runeLen (b :: (s ++ 34 :: r)) = 0 := by
      by_contra hne
      obtain ⟨d, x, hx⟩ := runeLen_char hne
      have hdq : d ≠ '"' := by
        rintro rfl
        rw [show enc '"' = [34] by decide, List.cons_append, List.cons.injEq] at hx
        rw [hx.1] at hb
        exact absurd hb (by decide)
      exact hno d (prefix_quote (t := b :: s) (r := r) ⟨x, by rw [← hx]; rfl⟩ (enc_noquote hdq))
    have k : ∀ n : UInt8, n.toNat < 128 → b ≠ n := by rintro n hn rfl; omega
    rw [List.cons_append]
    unfold strBody
    rw [if_neg (k 34 (by decide)), if_neg (fun h => by have := UInt8.lt_iff_toNat_lt.mp h; have e : (32 : UInt8).toNat = 32 := rfl; omega),
      if_neg (k 92 (by decide)), if_pos hz, ih f r (by omega), replacement_eq]
  | @short s u e b he _ ih =>
    intro f r hf
    obtain ⟨f, rfl⟩ : ∃ k, f = k + 1 := ⟨f - 1, by omega⟩
    simp only [List.length_cons] at hf
    have h117 : e ≠ 117 := by
      have : ∀ p ∈ shortEscapes, p.1 ≠ 117 := by decide
      exact this _ he
    simp only [List.cons_append]
    unfold strBody
    rw [if_neg (by decide), if_neg (by decide), if_pos rfl]
    simp only [if_neg h117, unesc_iff.mpr he, ih f r (by omega)]
  | @uni s u q c hq _ ih =>
    intro f r hf
    obtain ⟨f, rfl⟩ : ∃ k, f = k + 1 := ⟨f - 1, by omega⟩
    simp only [List.length_cons, List.length_append] at hf
    simp only [List.cons_append, List.append_assoc]
    unfold strBody
    rw [if_neg (by decide), if_neg (by decide), if_pos rfl]
    have e : uEscape c.val.toNat (s ++ 34 :: r) = (enc c, s ++ 34 :: r) := by
      unfold uEscape
      rw [if_neg (by have := char_val c; omega), encodeRune_char]
    simp only [if_true, getu4_complete hq, e, ih f r (by omega)]
  | @pair s u q q' a b c hq ha ha' hq' hb hb' hc _ ih =>
    intro f r hf
    obtain ⟨f, rfl⟩ : ∃ k, f = k + 1 := ⟨f - 1, by omega⟩
    simp only [List.length_cons, List.length_append] at hf
    simp only [List.cons_append, List.append_assoc]
    unfold strBody
    rw [if_neg (by decide), if_neg (by decide), if_pos rfl]
    have e : uEscape a (92 :: 117 :: (q' ++ (s ++ 34 :: r))) = (enc c, s ++ 34 :: r) := by
      rw [uEscape_pair ⟨ha, by omega⟩, getu4_complete hq']
      simp only [if_pos (show a < 0xDC00 ∧ 0xDC00 ≤ b ∧ b < 0xE000 from ⟨ha', hb, hb'⟩)]
      rw [← encodeRune_char, hc]
    simp only [if_true, getu4_complete hq, e, ih f r (by omega)]
  | @lone s u q a hq ha ha' hno _ ih =>
    intro f r hf
    obtain ⟨f, rfl⟩ : ∃ k, f = k + 1 := ⟨f - 1, by omega⟩
    simp only [List.length_cons, List.length_append] at hf
    simp only [List.cons_append, List.append_assoc]
    unfold strBody
    rw [if_neg (by decide), if_neg (by decide), if_pos rfl]
    have e : uEscape a (s ++ 34 :: r) = (replacement, s ++ 34 :: r) := by
      by_cases hp : ∃ t, s ++ 34 :: r = 92 :: 117 :: t
      · obtain ⟨t, ht⟩ := hp
        rw [ht, uEscape_pair ⟨ha, ha'⟩]
        cases hg : getu4 t with
        | none => rfl
        | some p =>
          obtain ⟨v, t'⟩ := p
          simp only
          rw [if_neg]
          rintro ⟨h1, h2, h3⟩
          obtain ⟨q', rfl, hq', -⟩ := getu4_sound hg
          refine hno h1 q' v hq' h2 h3 (prefix_quote (r := r) ⟨t', by rw [ht]; simp⟩ ?_)
          intro hm
          simp only [List.mem_cons] at hm
          rcases hm with hm | hm | hm
          · exact absurd hm (by decide)
          · exact absurd hm (by decide)
          · exact hex4_noquote hq' hm
      · exact uEscape_plain ⟨ha, ha'⟩ fun t e => hp ⟨t, e⟩
    simp only [if_true, getu4_complete hq, e, ih f r (by omega), replacement_eq]

/-! ### values -/

theorem head_lit {p r : Bytes} (w : Bytes) (c : UInt8) (l : Bytes) (hp : Ws p) (hw : w = c :: l) (hs : isSpace c = false)
    (h1 : c ≠ 93) (h2 : c ≠ 125) : ∃ c t, ws (p ++ w ++ r) = c :: t ∧ c ≠ 93 ∧ c ≠ 125 := by
  refine ⟨c, l ++ r, ?_, h1, h2⟩
  rw [List.append_assoc, hw, List.cons_append, ws_pre_cons hp _ hs]

theorem value_head {k : Kind} {n : Nat} {s : Bytes} {v : Json} (h : Reads k n s v) (r : Bytes) :
    ∃ c t, ws (s ++ r) = c :: t ∧ c ≠ 93 ∧ c ≠ 125 := by
  induction h generalizing r with
  | null hp => exact head_lit _ 110 _ hp rfl (by decide) (by decide) (by decide)
  | true hp => exact head_lit _ 116 _ hp rfl (by decide) (by decide) (by decide)
  | false hp => exact head_lit _ 102 _ hp rfl (by decide) (by decide) (by decide)
  | @num n p u hp hu =>
    obtain ⟨c, t, hc, h1⟩ := number_head hu
    rcases h1 with rfl | h1
    · exact head_lit _ 45 t hp hc (by decide) (by decide) (by decide)
    · refine head_lit _ c t hp hc ?_ ?_ ?_
      · cases hs : isSpace c with
        | false => rfl
        | true =>
          rcases isSpace_iff.mp hs with rfl | rfl | rfl | rfl <;> exact absurd h1.1 (by decide)
      · rintro rfl; exact absurd h1.2 (by decide)
      · rintro rfl; exact absurd h1.2 (by decide)
  | str hp _ => exact head_lit _ 34 _ hp rfl (by decide) (by decide) (by decide)
  | arr0 hp _ => exact head_lit _ 91 _ hp rfl (by decide) (by decide) (by decide)
  | arr hp _ _ => exact head_lit _ 91 _ hp rfl (by decide) (by decide) (by decide)
  | obj0 hp _ => exact head_lit _ 123 _ hp rfl (by decide) (by decide) (by decide)
  | obj hp _ _ => exact head_lit _ 123 _ hp rfl (by decide) (by decide) (by decide)
  | last _ _ ih => rw [List.append_assoc]; exact ih _
  | next _ _ _ ih _ => rw [List.append_assoc]; exact ih _
  | lastM hp => exact head_lit _ 34 _ hp rfl (by decide) (by decide) (by decide)
  | nextM hp => exact head_lit _ 34 _ hp rfl (by decide) (by decide) (by decide)

theorem literal_sound {w s r : Bytes} {v v' : Json} (h : literal w v s = some (v', r)) : s = w ++ r ∧ v' = v := by
  unfold literal at h
  split at h
  · next he =>
    cases h
    exact ⟨by conv_lhs => rw [← List.take_append_drop w.length s, he], rfl⟩
  · cases h

/-- What the readers deliver is derived by the grammar. -/
theorem reads_sound : ∀ (f : Nat),
    (∀ d s v r, value f d s = some (v, r) → ∃ p, s = p ++ r ∧ Reads .value (maxDepth - d) p v) ∧
    (∀ d s l r, elems f d s = some (l, r) → ∃ p, s = p ++ r ∧ Reads .elems (maxDepth - d) p (.arr l)) ∧
    (∀ d s l r, members f d s = some (l, r) → ∃ p, s = p ++ r ∧ Reads .members (maxDepth - d) p (.obj l)) := by
  intro f
  induction f with
  | zero =>
    refine ⟨fun d s v r h => ?_, fun d s v r h => ?_, fun d s v r h => ?_⟩
    · unfold value at h; cases h
    · unfold elems at h; cases h
    · unfold members at h; cases h
  | succ f ih =>
    obtain ⟨ihv, ihe, ihm⟩ := ih
    refine ⟨fun d s v r h => ?_, fun d s l r h => ?_, fun d s l r h => ?_⟩
    · obtain ⟨p, hp, hs⟩ := ws_split s
      unfold value at h
      split at h
      · cases h
      next c t hct =>
      rw [hct] at hs
      subst hs
      clear hct
      split at h
      · next hc =>
        subst hc
        split at h
        · cases h
        next hd =>
        obtain ⟨m, hm⟩ : ∃ m, maxDepth - d = m + 1 := ⟨maxDepth - d - 1, by omega⟩
        have hm' : maxDepth - (d + 1) = m := by omega
        obtain ⟨q, hq, ht⟩ := ws_split t
        split at h
        · next r' hr =>
          cases h
          rw [hr] at ht
          exact ⟨p ++ 123 :: (q ++ [125]), by rw [ht]; simp, by rw [hm]; exact .obj0 hp hq⟩
        · split at h
          · next l r' hl =>
            cases h
            obtain ⟨s', rfl, hs'⟩ := ihm _ _ _ _ hl
            exact ⟨p ++ 123 :: s', by simp, by rw [hm]; rw [hm'] at hs'; exact .obj hp hs'⟩
          · cases h
      split at h
      · next hc =>
        subst hc
        split at h
        · cases h
        next hd =>
        obtain ⟨m, hm⟩ : ∃ m, maxDepth - d = m + 1 := ⟨maxDepth - d - 1, by omega⟩
        have hm' : maxDepth - (d + 1) = m := by omega
        obtain ⟨q, hq, ht⟩ := ws_split t
        split at h
        · next r' hr =>
          cases h
          rw [hr] at ht
          exact ⟨p ++ 91 :: (q ++ [93]), by rw [ht]; simp, by rw [hm]; exact .arr0 hp hq⟩
        · split at h
          · next l r' hl =>
            cases h
            obtain ⟨s', rfl, hs'⟩ := ihe _ _ _ _ hl
            exact ⟨p ++ 91 :: s', by simp, by rw [hm]; rw [hm'] at hs'; exact .arr hp hs'⟩
          · cases h
      split at h
      · next hc =>
        subst hc
        split at h
        · next u r' hu =>
          cases h
          obtain ⟨m, rfl, hch⟩ := strBody_sound _ _ _ _ hu
          exact ⟨p ++ 34 :: (m ++ [34]), by simp, .str hp hch⟩
        · cases h
      split at h
      · obtain ⟨h1, rfl⟩ := literal_sound h
        exact ⟨p ++ ascii "true", by rw [h1, List.append_assoc], .true hp⟩
      split at h
      · obtain ⟨h1, rfl⟩ := literal_sound h
        exact ⟨p ++ ascii "false", by rw [h1, List.append_assoc], .false hp⟩
      split at h
      · obtain ⟨h1, rfl⟩ := literal_sound h
        exact ⟨p ++ ascii "null", by rw [h1, List.append_assoc], .null hp⟩
      split at h
      · next u r' hu =>
        cases h
        obtain ⟨h1, h2⟩ := number_sound hu
        exact ⟨p ++ u, by rw [h1, List.append_assoc], .num hp h2⟩
      · cases h
    · unfold elems at h
      split at h
      · cases h
      next v r1 hv =>
      obtain ⟨p, rfl, hpv⟩ := ihv _ _ _ _ hv
      obtain ⟨q, hq, hr1⟩ := ws_split r1
      split at h
      · next r2 hr2 =>
        rw [hr2] at hr1
        subst hr1
        split at h
        · next l' r3 hl =>
          cases h
          obtain ⟨t, rfl, ht⟩ := ihe _ _ _ _ hl
          exact ⟨p ++ (q ++ 44 :: t), by simp, .next hpv hq ht⟩
        · cases h
      · next r2 hr2 =>
        rw [hr2] at hr1
        subst hr1
        cases h
        exact ⟨p ++ (q ++ [93]), by simp, .last hpv hq⟩
      · cases h
    · obtain ⟨p, hp, hs⟩ := ws_split s
      unfold members at h
      split at h
      · next t ht =>
        rw [ht] at hs
        subst hs
        clear ht
        split at h
        · cases h
        next k r1 hk =>
        obtain ⟨k', rfl, hch⟩ := strBody_sound _ _ _ _ hk
        obtain ⟨q, hq, hr1⟩ := ws_split r1
        split at h
        · next r0 hr0 =>
          rw [hr0] at hr1
          subst hr1
          split at h
          · cases h
          next v r2 hv =>
          obtain ⟨s', rfl, hs'⟩ := ihv _ _ _ _ hv
          obtain ⟨q', hq', hr2⟩ := ws_split r2
          split at h
          · next r3 hr3 =>
            rw [hr3] at hr2
            subst hr2
            split at h
            · next l' r4 hl =>
              cases h
              obtain ⟨t', rfl, ht'⟩ := ihm _ _ _ _ hl
              exact ⟨_, by simp, .nextM hp hch hq hs' hq' ht'⟩
            · cases h
          · next r3 hr3 =>
            rw [hr3] at hr2
            subst hr2
            cases h
            exact ⟨_, by simp, .lastM hp hch hq hs' hq'⟩
          · cases h
        · cases h
      · cases h

theorem Follow.ws_of {q : Bytes} (hq : Ws q) {c : UInt8} (hc : c = 44 ∨ c = 93 ∨ c = 125) (t : Bytes) : Follow (q ++ c :: t) := by
  intro a l e
  cases q with
  | nil => simp only [List.nil_append, List.cons.injEq] at e; rw [← e.1]; exact .inr hc
  | cons b q =>
    simp only [List.cons_append, List.cons.injEq] at e
    rw [← e.1]
    exact .inl (isSpace_iff.mpr (hq b (by simp)))

/-- What the grammar derives is delivered by the readers. -/
theorem reads_complete {k : Kind} {n : Nat} {s : Bytes} {v : Json} (h : Reads k n s v) : ∀ (f d : Nat) (r : Bytes),
    2 * s.length ≤ f → d + n = maxDepth →
    match k with
    | .value => Follow r → value f d (s ++ r) = some (v, r)
    | .elems => ∃ l, v = .arr l ∧ elems f d (s ++ r) = some (l, r)
    | .members => ∃ l, v = .obj l ∧ members f d (s ++ r) = some (l, r) := by
  induction h with
  | @null n p hp =>
    intro f d r hf hd
    obtain ⟨f, rfl⟩ : ∃ g, f = g + 1 := ⟨f - 1, by simp [ascii] at hf; omega⟩
    intro _
    have e : ws (p ++ ascii "null" ++ r) = 110 :: (ascii "ull" ++ r) := by
      rw [List.append_assoc]; exact ws_pre_cons hp _ (by decide)
    unfold value
    rw [e]
    exact literal_append (ascii "null") r _
  | @true n p hp =>
    intro f d r hf hd
    obtain ⟨f, rfl⟩ : ∃ g, f = g + 1 := ⟨f - 1, by simp [ascii] at hf; omega⟩
    intro _
    have e : ws (p ++ ascii "true" ++ r) = 116 :: (ascii "rue" ++ r) := by
      rw [List.append_assoc]; exact ws_pre_cons hp _ (by decide)
    unfold value
    rw [e]
    exact literal_append (ascii "true") r _
  | @false n p hp =>
    intro f d r hf hd
    obtain ⟨f, rfl⟩ : ∃ g, f = g + 1 := ⟨f - 1, by simp [ascii] at hf; omega⟩
    intro _
    have e : ws (p ++ ascii "false" ++ r) = 102 :: (ascii "alse" ++ r) := by
      rw [List.append_assoc]; exact ws_pre_cons hp _ (by decide)
    unfold value
    rw [e]
    exact literal_append (ascii "false") r _
  | @num n p u hp hu =>
    intro f d r hf hd
    obtain ⟨c, t, hc, h1⟩ := number_head hu
    subst hc
    obtain ⟨f, rfl⟩ : ∃ g, f = g + 1 := ⟨f - 1, by simp at hf; omega⟩
    intro hr
    have hne : ∀ x : UInt8, x ≠ 45 → (x.toNat < 48 ∨ 57 < x.toNat) → c ≠ x := by
      rintro x hx hx' rfl
      rcases h1 with h1 | h1
      · exact hx h1
      · omega
    have hsp : isSpace c = Bool.false := by
      cases hs : isSpace c with
      | false => rfl
      | true =>
        rcases isSpace_iff.mp hs with h | h | h | h
        · exact absurd h (hne _ (by decide) (by decide))
        · exact absurd h (hne _ (by decide) (by decide))
        · exact absurd h (hne _ (by decide) (by decide))
        · exact absurd h (hne _ (by decide) (by decide))
    have e : ws (p ++ c :: t ++ r) = c :: (t ++ r) := by
      rw [List.append_assoc]; exact ws_pre_cons hp _ hsp
    have en := number_complete hu hr
    rw [List.cons_append] at en
    unfold value
    rw [e]
    simp only [if_neg (hne 123 (by decide) (by decide)), if_neg (hne 91 (by decide) (by decide)),
      if_neg (hne 34 (by decide) (by decide)), if_neg (hne 116 (by decide) (by decide)), if_neg (hne 102 (by decide) (by decide)),
      if_neg (hne 110 (by decide) (by decide)), en]
  | @str n p s u hp hs =>
    intro f d r hf hd
    obtain ⟨f, rfl⟩ : ∃ g, f = g + 1 := ⟨f - 1, by simp at hf; omega⟩
    intro _
    have e : ws (p ++ 34 :: (s ++ [34]) ++ r) = 34 :: (s ++ 34 :: r) := by
      rw [List.append_assoc, List.cons_append, ws_pre_cons hp _ (by decide)]; simp
    unfold value
    rw [e]
    simp only [if_neg (show ¬ (34 : UInt8) = 123 by decide), if_neg (show ¬ (34 : UInt8) = 91 by decide), if_true,
      strBody_complete hs ((s ++ 34 :: r).length + 1) r (by simp; omega)]
  | @arr0 n p q hp hq =>
    intro f d r hf hd
    obtain ⟨f, rfl⟩ : ∃ g, f = g + 1 := ⟨f - 1, by simp at hf; omega⟩
    intro _
    have e : ws (p ++ 91 :: (q ++ [93]) ++ r) = 91 :: (q ++ 93 :: r) := by
      rw [List.append_assoc, List.cons_append, ws_pre_cons hp _ (by decide)]; simp
    unfold value
    rw [e]
    simp only [if_neg (show ¬ (91 : UInt8) = 123 by decide), if_true, if_neg (show ¬ maxDepth ≤ d by omega),
      ws_pre_cons hq r (show isSpace 93 = Bool.false by decide)]
  | @arr n p s l hp hs ih =>
    intro f d r hf hd
    obtain ⟨f, rfl⟩ : ∃ g, f = g + 1 := ⟨f - 1, by simp at hf; omega⟩
    intro _
    have e : ws (p ++ 91 :: s ++ r) = 91 :: (s ++ r) := by
      rw [List.append_assoc, List.cons_append, ws_pre_cons hp _ (by decide)]
    obtain ⟨l', hl, he⟩ := ih f (d + 1) r (by simp at hf; omega) (by omega)
    cases hl
    obtain ⟨c, t, hw, h1, _⟩ := value_head hs r
    unfold value
    rw [e]
    simp only [if_neg (show ¬ (91 : UInt8) = 123 by decide), if_true, if_neg (show ¬ maxDepth ≤ d by omega), he]
    split
    · next r' hr => rw [hw] at hr; cases hr; exact absurd rfl h1
    · rfl
  | @obj0 n p q hp hq =>
    intro f d r hf hd
    obtain ⟨f, rfl⟩ : ∃ g, f = g + 1 := ⟨f - 1, by simp at hf; omega⟩
    intro _
    have e : ws (p ++ 123 :: (q ++ [125]) ++ r) = 123 :: (q ++ 125 :: r) := by
      rw [List.append_assoc, List.cons_append, ws_pre_cons hp _ (by decide)]; simp
    unfold value
    rw [e]
    simp only [if_true, if_neg (show ¬ maxDepth ≤ d by omega),
      ws_pre_cons hq r (show isSpace 125 = Bool.false by decide)]
  | @obj n p s l hp hs ih =>
    intro f d r hf hd
    obtain ⟨f, rfl⟩ : ∃ g, f = g + 1 := ⟨f - 1, by simp at hf; omega⟩
    intro _
    have e : ws (p ++ 123 :: s ++ r) = 123 :: (s ++ r) := by
      rw [List.append_assoc, List.cons_append, ws_pre_cons hp _ (by decide)]
    obtain ⟨l', hl, he⟩ := ih f (d + 1) r (by simp at hf; omega) (by omega)
    cases hl
    obtain ⟨c, t, hw, _, h1⟩ := value_head hs r
    unfold value
    rw [e]
    simp only [if_true, if_neg (show ¬ maxDepth ≤ d by omega), he]
    split
    · next r' hr => rw [hw] at hr; cases hr; exact absurd rfl h1
    · rfl
  | @last n s v q hv hq ih =>
    intro f d r hf hd
    obtain ⟨f, rfl⟩ : ∃ g, f = g + 1 := ⟨f - 1, by simp at hf; omega⟩
    refine ⟨_, rfl, ?_⟩
    have e : s ++ (q ++ [93]) ++ r = s ++ (q ++ 93 :: r) := by simp
    have hv' := ih f d (q ++ 93 :: r) (by simp at hf; omega) hd (Follow.ws_of hq (by simp) r)
    rw [e]
    unfold elems
    rw [hv']
    simp only [ws_pre_cons hq r (show isSpace 93 = Bool.false by decide)]
  | @next n s v q t l hv hq ht ihv iht =>
    intro f d r hf hd
    obtain ⟨f, rfl⟩ : ∃ g, f = g + 1 := ⟨f - 1, by simp at hf; omega⟩
    have e : s ++ (q ++ 44 :: t) ++ r = s ++ (q ++ 44 :: (t ++ r)) := by simp
    have hv' := ihv f d (q ++ 44 :: (t ++ r)) (by simp at hf; omega) hd (Follow.ws_of hq (by simp) _)
    obtain ⟨l', hl, he⟩ := iht f d r (by simp at hf; omega) hd
    cases hl
    refine ⟨_, rfl, ?_⟩
    rw [e]
    unfold elems
    rw [hv']
    simp only [ws_pre_cons hq (t ++ r) (show isSpace 44 = Bool.false by decide), he]
  | @lastM n p k k' q s v q' hp hk hq hv hq' ih =>
    intro f d r hf hd
    obtain ⟨f, rfl⟩ : ∃ g, f = g + 1 := ⟨f - 1, by simp at hf; omega⟩
    refine ⟨_, rfl, ?_⟩
    have e : p ++ 34 :: (k ++ 34 :: (q ++ 58 :: (s ++ (q' ++ [125])))) ++ r =
        p ++ 34 :: (k ++ 34 :: (q ++ 58 :: (s ++ (q' ++ 125 :: r)))) := by simp
    have hv' := ih f d (q' ++ 125 :: r) (by simp at hf; omega) hd (Follow.ws_of hq' (by simp) r)
    rw [e]
    unfold members
    rw [ws_pre_cons hp _ (by decide)]
    simp only [strBody_complete hk _ _ (show k.length < (k ++ 34 :: (q ++ 58 :: (s ++ (q' ++ 125 :: r)))).length + 1 by
      rw [List.length_append]; omega), ws_pre_cons hq _ (show isSpace 58 = Bool.false by decide), hv',
      ws_pre_cons hq' _ (show isSpace 125 = Bool.false by decide)]
  | @nextM n p k k' q s v q' t l hp hk hq hv hq' ht ihv iht =>
    intro f d r hf hd
    obtain ⟨f, rfl⟩ : ∃ g, f = g + 1 := ⟨f - 1, by simp at hf; omega⟩
    have e : p ++ 34 :: (k ++ 34 :: (q ++ 58 :: (s ++ (q' ++ 44 :: t)))) ++ r =
        p ++ 34 :: (k ++ 34 :: (q ++ 58 :: (s ++ (q' ++ 44 :: (t ++ r))))) := by simp
    have hv' := ihv f d (q' ++ 44 :: (t ++ r)) (by simp at hf; omega) hd (Follow.ws_of hq' (by simp) _)
    obtain ⟨l', hl, he⟩ := iht f d r (by simp at hf; omega) hd
    cases hl
    refine ⟨_, rfl, ?_⟩
    rw [e]
    unfold members
    rw [ws_pre_cons hp _ (by decide)]
    simp only [strBody_complete hk _ _ (show k.length < (k ++ 34 :: (q ++ 58 :: (s ++ (q' ++ 44 :: (t ++ r))))).length + 1 by
      rw [List.length_append]; omega), ws_pre_cons hq _ (show isSpace 58 = Bool.false by decide), hv',
      ws_pre_cons hq' _ (show isSpace 44 = Bool.false by decide), he]

/-! ### the theorems -/

/-- C130: a text is read as a value exactly if the grammar says so. -/
theorem C130_json (s : Bytes) (v : Json) : parse s = some v ↔ gspec.Text s v := by
  unfold parse gspec.Text
  constructor
  · intro h
    split at h
    · next v' r hv =>
      split at h
      · next he =>
        cases h
        obtain ⟨p, hs, hp⟩ := (reads_sound _).1 _ _ _ _ hv
        obtain ⟨q, hq, hr⟩ := ws_split r
        rw [List.isEmpty_iff.mp he, List.append_nil] at hr
        exact ⟨p, r, hs, hp, by rw [hr]; exact hq⟩
      · cases h
    · cases h
  · rintro ⟨p, q, rfl, hp, hq⟩
    have hF : Follow q := fun c t e => .inl (isSpace_iff.mpr (hq c (by rw [e]; simp)))
    rw [reads_complete hp (2 * (p ++ q).length + 2) 0 q (by simp; omega) (by rfl) hF]
    have hw : ws q = [] := by
      have := ws_pre hq []
      rwa [List.append_nil] at this
    simp [hw]

/-- C130: a JSON text has one meaning. -/
theorem C130_one_value {s : Bytes} {v w : Json} (hv : gspec.Text s v) (hw : gspec.Text s w) : v = w := by
  have := ((C130_json s v).mpr hv).symm.trans ((C130_json s w).mpr hw)
  exact Option.some.inj this

/-- C130: the body of a string is read up to its closing quote, exactly as the grammar says. -/
theorem C130_string (t u r : Bytes) : strBody (t.length + 1) t = some (u, r) ↔ ∃ s, t = s ++ 34 :: r ∧ gspec.Chars s u := by
  constructor
  · exact strBody_sound _ t u r
  · rintro ⟨s, rfl, hs⟩
    exact strBody_complete hs _ r (by simp; omega)

/-- C130: a text that is a number is read as that number, and no other text is. -/
theorem C130_number (s u : Bytes) : parse s = some (.num u) ↔ ∃ p q, s = p ++ (u ++ q) ∧ Ws p ∧ gspec.Number u ∧ Ws q := by
  rw [C130_json]
  constructor
  · rintro ⟨p, q, rfl, hp, hq⟩
    cases hp with
    | num hp hu => exact ⟨_, q, by simp, hp, hu, hq⟩
  · rintro ⟨p, q, rfl, hp, hu, hq⟩
    exact ⟨p ++ u, q, by simp, .num hp hu, hq⟩

/-! ### examples -/

mutual
/-- Equality of values, computed. -/
def jeq : Json → Json → Bool
  | .null, .null => true
  | .bool a, .bool b => a == b
  | .num a, .num b => a == b
  | .str a, .str b => a == b
  | .arr l, .arr m => jeqL l m
  | .obj l, .obj m => jeqM l m
  | _, _ => false
/-- Equality of lists. -/
def jeqL : List Json → List Json → Bool
  | [], [] => true
  | a :: l, b :: m => jeq a b && jeqL l m
  | _, _ => false
/-- Equality of lists of members. -/
def jeqM : List (Bytes × Json) → List (Bytes × Json) → Bool
  | [], [] => true
  | (k, a) :: l, (k', b) :: m => k == k' && jeq a b && jeqM l m
  | _, _ => false
end

mutual
theorem jeq_eq : ∀ (a b : Json), jeq a b = true → a = b
  | .null, b, h => by cases b <;> simp_all [jeq]
  | .bool x, b, h => by cases b <;> simp_all [jeq]
  | .num x, b, h => by cases b <;> simp_all [jeq]
  | .str x, b, h => by cases b <;> simp_all [jeq]
  | .arr l, b, h => by
    cases b with
    | arr m => rw [jeq] at h; rw [jeqL_eq l m h]
    | _ => simp [jeq] at h
  | .obj l, b, h => by
    cases b with
    | obj m => rw [jeq] at h; rw [jeqM_eq l m h]
    | _ => simp [jeq] at h
theorem jeqL_eq : ∀ (l m : List Json), jeqL l m = true → l = m
  | [], [], _ => rfl
  | [], _ :: _, h => by simp [jeqL] at h
  | _ :: _, [], h => by simp [jeqL] at h
  | a :: l, b :: m, h => by
    rw [jeqL, Bool.and_eq_true] at h
    rw [jeq_eq a b h.1, jeqL_eq l m h.2]
theorem jeqM_eq : ∀ (l m : List (Bytes × Json)), jeqM l m = true → l = m
  | [], [], _ => rfl
  | [], _ :: _, h => by simp [jeqM] at h
  | _ :: _, [], h => by simp [jeqM] at h
  | (k, a) :: l, (k', b) :: m, h => by
    rw [jeqM, Bool.and_eq_true, Bool.and_eq_true] at h
    rw [jeq_eq a b h.1.2, jeqM_eq l m h.2, eq_of_beq h.1.1]
end

/-- A text read as a certain value, computed. -/
theorem text_of {s : Bytes} {v : Json} (h : (match parse s with | some w => jeq w v | none => false) = true) : gspec.Text s v := by
  cases hp : parse s with
  | none => rw [hp] at h; cases h
  | some w => rw [hp] at h; exact (C130_json s v).mp (by rw [hp, jeq_eq w v h])

/-- A text that is refused, computed. -/
theorem no_text_of {s : Bytes} (h : (parse s).isSome = false) (v : Json) : ¬ gspec.Text s v := fun hv => by
  rw [(C130_json s v).mpr hv] at h; cases h

/-- A nested text with a surrogate pair, a byte that is not UTF-8 and white space. -/
def sample : Bytes := ascii " {\"a\" : [1, -2.5e+3 ,\"\\ud83d\\ude00\",true], \"" ++ [0xFF] ++ ascii "\":{}}\n"

example : gspec.Text sample (.obj [([97], .arr [.num [49], .num (ascii "-2.5e+3"), .str [0xF0, 0x9F, 0x98, 0x80], .bool true]),
    ([0xEF, 0xBF, 0xBD], .obj [])]) :=
  text_of (by decide +kernel)

example : ∀ v, ¬ gspec.Text (ascii "01") v := no_text_of (by decide +kernel)

example : ∀ v, ¬ gspec.Text (ascii "[1,]") v := no_text_of (by decide +kernel)

example : ∀ v, ¬ gspec.Text (ascii "{} x") v := no_text_of (by decide +kernel)

end Tss.Json
