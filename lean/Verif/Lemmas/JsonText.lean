import Verif.Model.JsonText
import Verif.Lemmas.Json
/-! UTF-8 and the strings `json.Marshal` writes for arbitrary bytes. -/
namespace Tss.Json
open Tss Text

/-- RFC 3629, in Lean's library. -/
local notation "enc" => String.utf8EncodeChar

/-! ### UTF-8 -/

theorem char_val (c : Char) : c.val.toNat < 0xD800 ∨ 0xDFFF < c.val.toNat ∧ c.val.toNat < 0x110000 := c.valid

theorem mkChar (n : Nat) (h : n < 0xD800 ∨ 0xDFFF < n ∧ n < 0x110000) : ∃ c : Char, c.val.toNat = n :=
  ⟨Char.ofNatAux n h, by
    show (BitVec.ofNatLT n _).toNat = n
    simp⟩

theorem u8_of (n : Nat) (h : n < 256) : (UInt8.ofNat n).toNat = n := by
  rw [UInt8.toNat_ofNat']; exact Nat.mod_eq_of_lt (by omega)

theorem u8_eq {a : UInt8} {n : Nat} (h : n = a.toNat) : UInt8.ofNat n = a := by
  subst h; simp

/-- the forms of an encoded character -/
theorem enc_cases (c : Char) :
    (c.val.toNat < 0x80 ∧ enc c = [UInt8.ofNat c.val.toNat]) ∨
    (0x80 ≤ c.val.toNat ∧ c.val.toNat < 0x800 ∧ enc c = [UInt8.ofNat (0xC0 + c.val.toNat / 64), UInt8.ofNat (0x80 + c.val.toNat % 64)]) ∨
    (0x800 ≤ c.val.toNat ∧ c.val.toNat < 0x10000 ∧ enc c = [UInt8.ofNat (0xE0 + c.val.toNat / 4096),
      UInt8.ofNat (0x80 + c.val.toNat / 64 % 64), UInt8.ofNat (0x80 + c.val.toNat % 64)]) ∨
    (0x10000 ≤ c.val.toNat ∧ c.val.toNat < 0x110000 ∧ enc c = [UInt8.ofNat (0xF0 + c.val.toNat / 262144),
      UInt8.ofNat (0x80 + c.val.toNat / 4096 % 64), UInt8.ofNat (0x80 + c.val.toNat / 64 % 64),
      UInt8.ofNat (0x80 + c.val.toNat % 64)]) := by
  have hv := char_val c
  unfold String.utf8EncodeChar
  simp only
  generalize c.val.toNat = n at *
  by_cases h1 : n ≤ 0x7f
  · exact .inl ⟨by omega, by rw [if_pos h1]⟩
  by_cases h2 : n ≤ 0x7ff
  · refine .inr (.inl ⟨by omega, by omega, ?_⟩)
    rw [if_neg h1, if_pos h2, Nat.add_comm _ 0xc0, Nat.add_comm _ 0x80, Nat.mod_eq_of_lt (show n / 64 < 0x20 by omega)]
  by_cases h3 : n ≤ 0xffff
  · refine .inr (.inr (.inl ⟨by omega, by omega, ?_⟩))
    rw [if_neg h1, if_neg h2, if_pos h3, Nat.add_comm _ 0xe0, Nat.add_comm _ 0x80, Nat.add_comm _ 0x80,
      Nat.mod_eq_of_lt (show n / 4096 < 0x10 by omega)]
  · refine .inr (.inr (.inr ⟨by omega, by omega, ?_⟩))
    rw [if_neg h1, if_neg h2, if_neg h3, Nat.add_comm _ 0xf0, Nat.add_comm _ 0x80, Nat.add_comm _ 0x80, Nat.add_comm _ 0x80,
      Nat.mod_eq_of_lt (show n / 262144 < 0x08 by omega)]

theorem encodeRune_char (c : Char) : encodeRune c.val.toNat = enc c := by
  unfold encodeRune
  rcases enc_cases c with ⟨h, e⟩ | ⟨h, h', e⟩ | ⟨h, h', e⟩ | ⟨h, h', e⟩ <;> rw [e]
  · rw [if_pos h]
  · rw [if_neg (by omega), if_pos h']
  · rw [if_neg (by omega), if_neg (by omega), if_pos h']
  · rw [if_neg (by omega), if_neg (by omega), if_neg (by omega)]

theorem enc_ne_nil (c : Char) : enc c ≠ [] := String.utf8EncodeChar_ne_nil

theorem within_ofNat {lo hi n : Nat} (h1 : lo ≤ n) (h2 : n ≤ hi) (h3 : n < 256) : within lo hi (UInt8.ofNat n) = true := by
  unfold within; rw [u8_of n h3]; simp [h1, h2]

/-- `DecodeRune` finds a whole encoded character -/
theorem runeLen_enc (c : Char) (t : Bytes) : runeLen (enc c ++ t) = (enc c).length := by
  have hv := char_val c
  rcases enc_cases c with ⟨h, e⟩ | ⟨h, h', e⟩ | ⟨h, h', e⟩ | ⟨h, h', e⟩ <;> rw [e] <;> generalize c.val.toNat = n at *
  · show runeLen (_ :: t) = 1
    unfold runeLen; simp only; rw [u8_of n (by omega), if_pos h]
  · show runeLen (_ :: _ :: t) = 2
    unfold runeLen; simp only
    rw [u8_of _ (by omega), if_neg (by omega), if_pos (by omega), within_ofNat (by omega) (by omega) (by omega), if_pos rfl]
  · show runeLen (_ :: _ :: _ :: t) = 3
    unfold runeLen; simp only
    rw [u8_of _ (by omega), if_neg (by omega), if_neg (by omega), if_pos (by omega),
      within_ofNat (by split <;> omega) (by split <;> omega) (by omega), within_ofNat (by omega) (by omega) (by omega)]
    rfl
  · show runeLen (_ :: _ :: _ :: _ :: t) = 4
    unfold runeLen; simp only
    rw [u8_of _ (by omega), if_neg (by omega), if_neg (by omega), if_neg (by omega), if_pos (by omega),
      within_ofNat (by split <;> omega) (by split <;> omega) (by omega), within_ofNat (by omega) (by omega) (by omega),
      within_ofNat (by omega) (by omega) (by omega)]
    rfl

theorem within_iff {lo hi : Nat} {b : UInt8} : within lo hi b = true ↔ lo ≤ b.toNat ∧ b.toNat ≤ hi := by
  unfold within; simp

theorem enc_of {n : Nat} {l : Bytes} (h : n < 0xD800 ∨ 0xDFFF < n ∧ n < 0x110000) (e : encodeRune n = l) : ∃ c, enc c = l := by
  obtain ⟨c, hc⟩ := mkChar n h
  exact ⟨c, by rw [← encodeRune_char, hc, e]⟩

/-- and what it finds is an encoded character -/
theorem runeLen_char {s : Bytes} (h : runeLen s ≠ 0) : ∃ c t, s = enc c ++ t := by
  cases s with
  | nil => exact absurd rfl h
  | cons a t =>
    have ha := a.toNat_lt
    unfold runeLen at h
    simp only at h
    split at h
    · next h1 =>
      obtain ⟨c, hc⟩ := enc_of (n := a.toNat) (l := [a]) (by omega) (by unfold encodeRune; rw [if_pos h1]; simp)
      exact ⟨c, t, by rw [hc]; rfl⟩
    split at h
    · next h1 h2 =>
      split at h
      · next b u =>
        split at h
        · next hb =>
          rw [within_iff] at hb
          obtain ⟨c, hc⟩ := enc_of (n := (a.toNat - 0xC0) * 64 + (b.toNat - 0x80)) (l := [a, b]) (by omega) (by
            unfold encodeRune; rw [if_neg (by omega), if_pos (by omega)]
            refine congrArg₂ List.cons ?_ (congrArg₂ List.cons ?_ rfl)
            · exact u8_eq (by omega)
            · exact u8_eq (by omega))
          exact ⟨c, u, by rw [hc]; rfl⟩
        · exact absurd rfl h
      · exact absurd rfl h
    split at h
    · next h1 h2 h3 =>
      split at h
      · next b d u =>
        by_cases hb : (within (if a.toNat = 0xE0 then 0xA0 else 0x80) (if a.toNat = 0xED then 0x9F else 0xBF) b && within 0x80 0xBF d) = true
        · rw [Bool.and_eq_true, within_iff, within_iff] at hb
          obtain ⟨⟨hb1, hb2⟩, hd1, hd2⟩ := hb
          have hb1' : 0x80 ≤ b.toNat := by split at hb1 <;> omega
          have hb2' : b.toNat ≤ 0xBF := by split at hb2 <;> omega
          have k1 : 0x800 ≤ (a.toNat - 0xE0) * 4096 + (b.toNat - 0x80) * 64 + (d.toNat - 0x80) := by split at hb1 <;> omega
          obtain ⟨c, hc⟩ := enc_of (n := (a.toNat - 0xE0) * 4096 + (b.toNat - 0x80) * 64 + (d.toNat - 0x80)) (l := [a, b, d])
            (by split at hb2 <;> omega) (by
            unfold encodeRune; rw [if_neg (by omega), if_neg (by omega), if_pos (by omega)]
            refine congrArg₂ List.cons ?_ (congrArg₂ List.cons ?_ (congrArg₂ List.cons ?_ rfl))
            · exact u8_eq (by omega)
            · exact u8_eq (by omega)
            · exact u8_eq (by omega))
          exact ⟨c, u, by rw [hc]; rfl⟩
        · rw [if_neg hb] at h; exact absurd rfl h
      · exact absurd rfl h
    split at h
    · next h1 h2 h3 h4 =>
      split at h
      · next b d g u =>
        by_cases hb : (within (if a.toNat = 0xF0 then 0x90 else 0x80) (if a.toNat = 0xF4 then 0x8F else 0xBF) b &&
            within 0x80 0xBF d && within 0x80 0xBF g) = true
        · rw [Bool.and_eq_true, Bool.and_eq_true, within_iff, within_iff, within_iff] at hb
          obtain ⟨⟨⟨hb1, hb2⟩, hd1, hd2⟩, hg1, hg2⟩ := hb
          have hb1' : 0x80 ≤ b.toNat := by split at hb1 <;> omega
          have hb2' : b.toNat ≤ 0xBF := by split at hb2 <;> omega
          have k1 : 0x10000 ≤ (a.toNat - 0xF0) * 262144 + (b.toNat - 0x80) * 4096 + (d.toNat - 0x80) * 64 + (g.toNat - 0x80) := by
            split at hb1 <;> omega
          have k2 : (a.toNat - 0xF0) * 262144 + (b.toNat - 0x80) * 4096 + (d.toNat - 0x80) * 64 + (g.toNat - 0x80) < 0x110000 := by
            split at hb2 <;> omega
          obtain ⟨c, hc⟩ := enc_of (n := (a.toNat - 0xF0) * 262144 + (b.toNat - 0x80) * 4096 + (d.toNat - 0x80) * 64 + (g.toNat - 0x80))
            (l := [a, b, d, g]) (by omega) (by
            unfold encodeRune; rw [if_neg (by omega), if_neg (by omega), if_neg (by omega)]
            refine congrArg₂ List.cons ?_ (congrArg₂ List.cons ?_ (congrArg₂ List.cons ?_ (congrArg₂ List.cons ?_ rfl)))
            · exact u8_eq (by omega)
            · exact u8_eq (by omega)
            · exact u8_eq (by omega)
            · exact u8_eq (by omega))
          exact ⟨c, u, by rw [hc]; rfl⟩
        · rw [if_neg hb] at h; exact absurd rfl h
      · exact absurd rfl h
    exact absurd rfl h

theorem enc_head (c : Char) : (∃ b, enc c = [b] ∧ b < 128) ∨ ∃ b t, enc c = b :: t ∧ ¬ b < 128 ∧ (∀ d ∈ t, ¬ d < 128) ∧ 2 ≤ (enc c).length := by
  have big : ∀ n, 128 ≤ n → n < 256 → ¬ UInt8.ofNat n < 128 := by
    intro n h1 h2 h
    have := UInt8.lt_iff_toNat_lt.mp h
    rw [u8_of n h2] at this
    simp at this; omega
  rcases enc_cases c with ⟨h, e⟩ | ⟨h, h', e⟩ | ⟨h, h', e⟩ | ⟨h, h', e⟩
  · exact .inl ⟨_, e, by rw [UInt8.lt_iff_toNat_lt, u8_of _ (by omega)]; exact h⟩
  · refine .inr ⟨_, _, e, big _ (by omega) (by omega), ?_, by rw [e]; simp⟩
    simp only [List.mem_cons, List.not_mem_nil, or_false, forall_eq]
    exact big _ (by omega) (by omega)
  · refine .inr ⟨_, _, e, big _ (by omega) (by omega), ?_, by rw [e]; simp⟩
    simp only [List.mem_cons, List.not_mem_nil, or_false, forall_eq_or_imp, forall_eq]
    exact ⟨big _ (by omega) (by omega), big _ (by omega) (by omega)⟩
  · refine .inr ⟨_, _, e, big _ (by omega) (by omega), ?_, by rw [e]; simp⟩
    simp only [List.mem_cons, List.not_mem_nil, or_false, forall_eq_or_imp, forall_eq]
    exact ⟨big _ (by omega) (by omega), big _ (by omega) (by omega), big _ (by omega) (by omega)⟩

theorem enc_big {c : Char} (h : ¬ c.val.toNat < 128) : ∃ b t, enc c = b :: t ∧ ¬ b < 128 ∧ (∀ d ∈ t, ¬ d < 128) ∧ 2 ≤ (enc c).length := by
  rcases enc_head c with ⟨b, e, hb⟩ | k
  · exfalso
    rcases enc_cases c with ⟨h', _⟩ | ⟨_, _, e'⟩ | ⟨_, _, e'⟩ | ⟨_, _, e'⟩
    · exact h h'
    all_goals rw [e] at e'; simp at e'
  · exact k

theorem enc_small {c : Char} (h : c.val.toNat < 128) : enc c = [UInt8.ofNat c.val.toNat] := by
  rcases enc_cases c with ⟨_, e⟩ | ⟨h1, _⟩ | ⟨h1, _⟩ | ⟨h1, _⟩
  · exact e
  all_goals omega

theorem enc_inj {c d : Char} (h : enc c = enc d) : c = d := by
  have e : c.val.toNat = d.val.toNat := by
    have hc := char_val c
    have hd := char_val d
    have inj : ∀ m n, m < 256 → n < 256 → UInt8.ofNat m = UInt8.ofNat n → m = n := fun m n h1 h2 h => by
      have := congrArg UInt8.toNat h; rwa [u8_of _ h1, u8_of _ h2] at this
    rcases enc_cases c with ⟨h1, e1⟩ | ⟨h1, h1', e1⟩ | ⟨h1, h1', e1⟩ | ⟨h1, h1', e1⟩ <;>
    rcases enc_cases d with ⟨h2, e2⟩ | ⟨h2, h2', e2⟩ | ⟨h2, h2', e2⟩ | ⟨h2, h2', e2⟩ <;> rw [e1, e2] at h <;>
      generalize c.val.toNat = m at * <;> generalize d.val.toNat = n at * <;>
      simp only [List.cons.injEq, and_true, and_false, List.nil_eq, List.cons_ne_nil] at h
    · exact inj _ _ (by omega) (by omega) h
    · have k1 := inj _ _ (by omega) (by omega) h.1
      have k2 := inj _ _ (by omega) (by omega) h.2
      omega
    · have k1 := inj _ _ (by omega) (by omega) h.1
      have k2 := inj _ _ (by omega) (by omega) h.2.1
      have k3 := inj _ _ (by omega) (by omega) h.2.2
      omega
    · have k1 := inj _ _ (by omega) (by omega) h.1
      have k2 := inj _ _ (by omega) (by omega) h.2.1
      have k3 := inj _ _ (by omega) (by omega) h.2.2.1
      have k4 := inj _ _ (by omega) (by omega) h.2.2.2
      omega
  exact Char.ext (UInt32.toNat_inj.mp e)

/-- no encoded character begins another one -/
theorem enc_prefix {c d : Char} {s t : Bytes} (h : enc c ++ s = enc d ++ t) : c = d ∧ s = t := by
  have hl : (enc c).length = (enc d).length := by rw [← runeLen_enc c s, h, runeLen_enc]
  obtain ⟨h1, h2⟩ := List.append_inj h hl
  exact ⟨enc_inj h1, h2⟩

end Tss.Json
