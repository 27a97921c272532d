import Verif.Model.Text
import Verif.Lemmas.Go
/-! Lemmas about the text encodings of `Verif/Model/Text.lean`. -/
namespace Tss.Text
open Tss

theorem u8_ofNat_toNat {n : Nat} (h : n < 256) : (UInt8.ofNat n).toNat = n := by
  simp [UInt8.toNat_ofNat', Nat.mod_eq_of_lt h]

theorem u8_ext {a b : UInt8} (h : a.toNat = b.toNat) : a = b := UInt8.toNat_inj.mp h

theorem u8_lt (a : UInt8) : a.toNat < 256 := a.toNat_lt

theorem b64Val_digit : ∀ n, n < 64 → b64Val (b64Digit n) = some n := by decide
theorem b64Digit_ne : ∀ n, n < 64 → b64Digit n ≠ 61 ∧ b64Digit n ≠ 13 ∧ b64Digit n ≠ 10 := by decide

theorem b64Quads_encode : ∀ b : Bytes, b64Quads (b64Encode b) = some b
  | [] => rfl
  | [a] => by
    have := u8_lt a
    have h1 := b64Val_digit (a.toNat / 4) (by omega)
    have h2 := b64Val_digit (a.toNat % 4 * 16) (by omega)
    simp only [b64Encode, b64Quads, h1, h2, and_self, if_true]
    congr 2
    apply u8_ext; rw [u8_ofNat_toNat] <;> omega
  | [a, b] => by
    have := u8_lt a; have := u8_lt b
    have h1 := b64Val_digit (a.toNat / 4) (by omega)
    have h2 := b64Val_digit (a.toNat % 4 * 16 + b.toNat / 16) (by omega)
    have h3 := b64Val_digit (b.toNat % 16 * 4) (by omega)
    have h4 := (b64Digit_ne (b.toNat % 16 * 4) (by omega)).1
    simp only [b64Encode, b64Quads, h1, h2, h3, h4, if_false, if_true]
    congr 2
    · apply u8_ext; rw [u8_ofNat_toNat] <;> omega
    · congr 1; apply u8_ext; rw [u8_ofNat_toNat] <;> omega
  | a :: b :: c :: t => by
    have := u8_lt a; have := u8_lt b; have := u8_lt c
    have h1 := b64Val_digit (a.toNat / 4) (by omega)
    have h2 := b64Val_digit (a.toNat % 4 * 16 + b.toNat / 16) (by omega)
    have h3 := b64Val_digit (b.toNat % 16 * 4 + c.toNat / 64) (by omega)
    have h3' := (b64Digit_ne (b.toNat % 16 * 4 + c.toNat / 64) (by omega)).1
    have h4 := b64Val_digit (c.toNat % 64) (by omega)
    have h4' := (b64Digit_ne (c.toNat % 64) (by omega)).1
    simp only [b64Encode, b64Quads, h1, h2, h3, h3', h4, h4', if_false, b64Quads_encode t]
    congr 2
    · apply u8_ext; rw [u8_ofNat_toNat] <;> omega
    · congr 1
      · apply u8_ext; rw [u8_ofNat_toNat] <;> omega
      · congr 1; apply u8_ext; rw [u8_ofNat_toNat] <;> omega

theorem b64Encode_no_newline : ∀ b : Bytes, ∀ x ∈ b64Encode b, x ≠ 13 ∧ x ≠ 10
  | [] => by simp [b64Encode]
  | [a] => by
    have := u8_lt a
    have h1 := (b64Digit_ne (a.toNat / 4) (by omega)).2
    have h2 := (b64Digit_ne (a.toNat % 4 * 16) (by omega)).2
    intro x hx
    simp only [b64Encode, List.mem_cons, List.not_mem_nil, or_false] at hx
    rcases hx with rfl | rfl | rfl | rfl <;> first | assumption | decide
  | [a, b] => by
    have := u8_lt a; have := u8_lt b
    have h1 := (b64Digit_ne (a.toNat / 4) (by omega)).2
    have h2 := (b64Digit_ne (a.toNat % 4 * 16 + b.toNat / 16) (by omega)).2
    have h3 := (b64Digit_ne (b.toNat % 16 * 4) (by omega)).2
    intro x hx
    simp only [b64Encode, List.mem_cons, List.not_mem_nil, or_false] at hx
    rcases hx with rfl | rfl | rfl | rfl <;> first | assumption | decide
  | a :: b :: c :: t => by
    have := u8_lt a; have := u8_lt b; have := u8_lt c
    have h1 := (b64Digit_ne (a.toNat / 4) (by omega)).2
    have h2 := (b64Digit_ne (a.toNat % 4 * 16 + b.toNat / 16) (by omega)).2
    have h3 := (b64Digit_ne (b.toNat % 16 * 4 + c.toNat / 64) (by omega)).2
    have h4 := (b64Digit_ne (c.toNat % 64) (by omega)).2
    intro x hx
    simp only [b64Encode, List.mem_cons] at hx
    rcases hx with rfl | rfl | rfl | rfl | hx
    · assumption
    · assumption
    · assumption
    · assumption
    · exact b64Encode_no_newline t x hx

/-- base64 decoding inverts encoding. -/
theorem b64_round_trip (b : Bytes) : b64Decode (b64Encode b) = some b := by
  unfold b64Decode
  rw [List.filter_eq_self.mpr, b64Quads_encode]
  intro x hx
  have := b64Encode_no_newline b x hx
  simp [this]

theorem hexVal_digit : ∀ n, n < 16 → hexVal (hexDigit n) = some n := by decide

/-- hex decoding inverts encoding. -/
theorem hex_round_trip (b : Bytes) : hexDecode (hexEncode b) = some b := by
  induction b with
  | nil => rfl
  | cons a t ih =>
    have := u8_lt a
    have h1 := hexVal_digit (a.toNat / 16) (by omega)
    have h2 := hexVal_digit (a.toNat % 16) (by omega)
    have : hexEncode (a :: t) = hexDigit (a.toNat / 16) :: hexDigit (a.toNat % 16) :: hexEncode t := rfl
    rw [this]
    simp only [hexDecode, h1, h2, ih]
    congr 2
    apply u8_ext; rw [u8_ofNat_toNat] <;> omega

/-! ### split -/

theorem split_ne_nil (sep : UInt8) (b : Bytes) : split sep b ≠ [] := by
  cases b with
  | nil => simp [split]
  | cons a t =>
    simp only [split]
    split
    · simp
    · split <;> simp

/-- Join with a one-byte separator. -/
def join (sep : UInt8) : List Bytes → Bytes
  | [] => []
  | [a] => a
  | a :: b :: t => a ++ sep :: join sep (b :: t)

theorem join_split (sep : UInt8) (b : Bytes) : join sep (split sep b) = b := by
  induction b with
  | nil => rfl
  | cons a t ih =>
    simp only [split]
    split
    · next h =>
      subst h
      have := split_ne_nil a t
      revert ih
      cases hs : split a t with
      | nil => exact absurd hs this
      | cons h r => intro ih; simp [join, ih]
    · split
      · next h => exact absurd h (split_ne_nil sep t)
      · next h r hs =>
        rw [hs] at ih
        cases r with
        | nil => simp only [join] at ih ⊢; rw [ih]
        | cons r1 r2 => simp only [join] at ih ⊢; rw [← ih]; rfl

theorem split_append (sep : UInt8) (a r : Bytes) (h : sep ∉ a) : split sep (a ++ sep :: r) = a :: split sep r := by
  induction a with
  | nil => simp [split]
  | cons x t ih =>
    have hx : x ≠ sep := fun e => h (by simp [e])
    have ht : sep ∉ t := fun e => h (by simp [e])
    simp only [List.cons_append, split, hx, if_false, ih ht]

theorem split_noSep (sep : UInt8) (a : Bytes) (h : sep ∉ a) : split sep a = [a] := by
  induction a with
  | nil => rfl
  | cons x t ih =>
    have hx : x ≠ sep := fun e => h (by simp [e])
    have ht : sep ∉ t := fun e => h (by simp [e])
    simp only [split, hx, if_false, ih ht]

theorem split_join (sep : UInt8) : ∀ (l : List Bytes), l ≠ [] → (∀ a ∈ l, sep ∉ a) → split sep (join sep l) = l
  | [], h, _ => absurd rfl h
  | [a], _, h => by simpa [join] using split_noSep sep a (h a (by simp))
  | a :: b :: t, _, h => by
    rw [join, split_append _ _ _ (h a (by simp)), split_join sep (b :: t) (by simp) (fun x hx => h x (by simp [hx]))]

/-! ### decimal numerals -/

theorem digitVal_dec {d : Nat} (h : d < 10) : digitVal (UInt8.ofNat (48 + d)) = some d := by
  revert d; decide

theorem digitsVal_append (base acc : Nat) (a b : Bytes) :
    digitsVal base acc (a ++ b) = (digitsVal base acc a).bind fun v => digitsVal base v b := by
  induction a generalizing acc with
  | nil => rfl
  | cons x t ih =>
    simp only [List.cons_append, digitsVal]
    cases digitVal x with
    | none => rfl
    | some d =>
      simp only
      split
      · exact ih _
      · rfl

theorem digitsVal_decAux (f n acc : Nat) (h : n ≤ f) :
    ∃ k, digitsVal 10 acc (decAux f n) = some (acc * 10 ^ k + n) ∧ k = (decAux f n).length := by
  induction f generalizing n with
  | zero =>
    obtain rfl : n = 0 := by omega
    exact ⟨1, by simp [decAux, digitsVal, digitVal], by simp [decAux]⟩
  | succ f ih =>
    simp only [decAux]
    split
    · next h10 =>
      refine ⟨1, ?_, by simp⟩
      simp only [digitsVal, digitVal_dec h10, h10, if_true, pow_one]
    · next h10 =>
      obtain ⟨k, hk, hkl⟩ := ih (n / 10) (by omega)
      refine ⟨k + 1, ?_, by simp [hkl]⟩
      rw [digitsVal_append, hk]
      have hd : n % 10 < 10 := by omega
      simp only [Option.bind_some, digitsVal, digitVal_dec hd, hd, if_true]
      congr 1
      have := Nat.div_add_mod n 10
      rw [pow_succ, Nat.add_mul, Nat.mul_assoc]
      omega

theorem itoa_ne_nil (n : Nat) : itoa n ≠ [] := by
  unfold itoa
  cases n with
  | zero => simp [decAux]
  | succ n => simp only [decAux]; split <;> simp

theorem parseNat_itoa (n : Nat) : parseNat 10 (itoa n) = some n := by
  obtain ⟨k, hk, -⟩ := digitsVal_decAux n n 0 le_rfl
  unfold parseNat
  split
  · next h => exact absurd h (itoa_ne_nil n)
  · next s _ => simpa [itoa] using hk

theorem itoa_injective : Function.Injective itoa := by
  intro a b h
  have := parseNat_itoa a
  rw [h, parseNat_itoa] at this
  exact (Option.some.inj this).symm

theorem itoa_digits (n : Nat) : ∀ b ∈ itoa n, 48 ≤ b.toNat ∧ b.toNat ≤ 57 := by
  unfold itoa
  suffices ∀ f n, ∀ b ∈ decAux f n, 48 ≤ b.toNat ∧ b.toNat ≤ 57 from this n n
  intro f
  induction f with
  | zero =>
    intro n b hb
    simp only [decAux, List.mem_singleton] at hb
    subst hb
    rw [u8_ofNat_toNat] <;> omega
  | succ f ih =>
    intro n b hb
    simp only [decAux] at hb
    split at hb
    · simp only [List.mem_singleton] at hb
      subst hb; rw [u8_ofNat_toNat] <;> omega
    · simp only [List.mem_append, List.mem_singleton] at hb
      rcases hb with hb | rfl
      · exact ih _ _ hb
      · rw [u8_ofNat_toNat] <;> omega

theorem parseBig_itoa (n : Nat) : parseBig 10 (itoa n) = some (n : Int) := by
  have h := parseNat_itoa n
  have hd := itoa_digits n
  revert h hd
  cases itoa n with
  | nil => intro h; simp [parseNat] at h
  | cons b t =>
    intro h hd
    have hb := hd b (by simp)
    unfold parseBig
    have h1 : b ≠ 43 := by rintro rfl; simp at hb
    have h2 : b ≠ 45 := by rintro rfl; simp at hb
    simp [h1, h2, h]

end Tss.Text
