import Verif.Props.AliceUtils
/-
C66: the size of the primes that alice's search returns.
-/
namespace Tss.Alice
open Tss

theorem setLow_length : ∀ b : Bytes, (shape.setLow b).length = b.length
  | [] => rfl
  | [_] => rfl
  | x :: y :: t => by rw [shape.setLow, List.length_cons, setLow_length (y :: t)]; rfl

theorem setLow_ge : ∀ b : Bytes, beNat b ≤ beNat (shape.setLow b)
  | [] => le_refl _
  | [x] => by
    rw [shape.setLow, beNat_cons, beNat_cons]
    have : x.toNat ≤ (x ||| 1).toNat := by rw [UInt8.toNat_or]; exact Nat.left_le_or
    have := Nat.mul_le_mul_right (256 ^ ([] : Bytes).length) this
    omega
  | x :: y :: t => by
    have := setLow_ge (y :: t)
    have e1 : beNat (x :: shape.setLow (y :: t)) = x.toNat * 256 ^ (y :: t).length + beNat (shape.setLow (y :: t)) := by
      rw [beNat_cons, setLow_length]
    have e2 : beNat (x :: y :: t) = x.toNat * 256 ^ (y :: t).length + beNat (y :: t) := beNat_cons _ _
    rw [shape.setLow, e1, e2]
    omega

theorem first_ge {x k : UInt8} {t : Bytes} : k.toNat * 256 ^ t.length ≤ beNat (shape.setLow ((x ||| k) :: t)) := by
  refine le_trans ?_ (setLow_ge _)
  rw [beNat_cons]
  have : k.toNat ≤ (x ||| k).toNat := by rw [UInt8.toNat_or]; exact Nat.right_le_or
  have := Nat.mul_le_mul_right (256 ^ t.length) this
  omega

/-- The two top bits of a shaped candidate are set. -/
theorem shape_ge (b : Nat) (l : Bytes) (hb : 1 ≤ b ∧ b ≤ 8) (hl : 2 ≤ 8 * (l.length - 1) + b) (hne : l ≠ []) :
    3 * 2 ^ (8 * (l.length - 1) + b - 2) ≤ beNat (shape b l) := by
  have p256 : ∀ n : Nat, (256 : Nat) ^ n = 2 ^ (8 * n) := by intro n; rw [pow_mul]; norm_num
  cases l with
  | nil => exact absurd rfl hne
  | cons x t =>
    unfold shape
    simp only
    rw [List.length_cons, Nat.add_sub_cancel] at *
    by_cases h2 : 2 ≤ b
    · rw [if_pos h2]
      refine le_trans ?_ first_ge
      have e : (UInt8.ofNat (3 * 2 ^ (b - 2))).toNat = 3 * 2 ^ (b - 2) := by
        rw [UInt8.toNat_ofNat', Nat.mod_eq_of_lt]
        have : 2 ^ (b - 2) ≤ 2 ^ 6 := Nat.pow_le_pow_right (by norm_num) (by omega)
        omega
      rw [e, p256, Nat.mul_assoc, ← pow_add]
      apply Nat.mul_le_mul_left
      exact Nat.pow_le_pow_right (by norm_num) (by omega)
    · rw [if_neg h2]
      cases t with
      | nil => simp at hl; omega
      | cons y t' =>
        have hb1 : b = 1 := by omega
        subst hb1
        refine le_trans ?_ (setLow_ge _)
        rw [beNat_cons, beNat_cons, List.length_cons, p256, p256]
        have h1 : 1 ≤ ((UInt8.ofNat (x.toNat % 2 ^ 1)) ||| 1).toNat := by
          rw [UInt8.toNat_or]; exact Nat.right_le_or
        have h3 : 128 ≤ (y ||| 0x80).toNat := by
          rw [UInt8.toNat_or]; exact Nat.right_le_or
        have h1 := Nat.mul_le_mul_right (2 ^ (8 * (t'.length + 1))) h1
        have h3 := Nat.mul_le_mul_right (2 ^ (8 * t'.length)) h3
        have e : 8 * (t'.length + 1) + 1 - 2 = 8 * t'.length + 7 := by omega
        rw [e, pow_add]
        have e2 : 2 ^ (8 * (t'.length + 1)) = 2 ^ (8 * t'.length) * 256 := by rw [Nat.mul_add, pow_add]; norm_num
        rw [List.length_cons, e2]
        rw [e2] at h1
        generalize 2 ^ (8 * t'.length) = A at *
        omega

theorem adjust_ge (q : Nat) : q ≤ adjust q := by
  unfold adjust; simp only
  split
  · omega
  · split <;> omega

theorem safePrimeLoop_ge {isPrime : Nat → Bool} {pbits : Nat} (hp : 3 ≤ pbits) :
    ∀ (f : Nat) (tape : Bytes) (P Q : Nat), safePrimeLoop isPrime pbits f tape = some (.ok (P, Q)) → 3 * 2 ^ (pbits - 3) ≤ Q
  | 0, _, _, _, h => by simp [safePrimeLoop] at h
  | f + 1, tape, P, Q, h => by
    unfold safePrimeLoop at h
    simp only at h
    cases hr : Common.readFull ((pbits - 1 + 7) / 8) tape with
    | none => rw [hr] at h; simp at h
    | some br =>
      obtain ⟨bytes, rest⟩ := br
      rw [hr] at h
      simp only at h
      have hb : ∃ b, b = (if (pbits - 1) % 8 = 0 then 8 else (pbits - 1) % 8) ∧ 1 ≤ b ∧ b ≤ 8 ∧ 8 * ((pbits - 1 + 7) / 8 - 1) + b = pbits - 1 := by
        refine ⟨_, rfl, ?_⟩
        split <;> omega
      obtain ⟨b, hb0, hb1, hb2, hb3⟩ := hb
      rw [← hb0] at h
      have hlen : bytes.length = (pbits - 1 + 7) / 8 := by
        unfold Common.readFull at hr
        split at hr
        · simp at hr
        · simp only [Option.some.injEq, Prod.mk.injEq] at hr
          rw [← hr.1, List.length_take]
          omega
      have hne : bytes ≠ [] := by
        intro h0
        rw [h0, List.length_nil] at hlen
        omega
      cases hd : deltaLoop isPrime pbits (adjust (beNat (shape b bytes))) 171 0 with
      | none => rw [hd] at h; exact safePrimeLoop_ge hp f rest P Q h
      | some q =>
        rw [hd] at h
        simp only [Option.some.injEq, Res.ok.injEq, Prod.mk.injEq] at h
        obtain ⟨rfl, rfl⟩ := h
        obtain ⟨-, -, h2, -⟩ := deltaLoop_spec _ _ _ (by norm_num) hd
        have h3 := adjust_ge (beNat (shape b bytes))
        have h4 := shape_ge b bytes ⟨hb1, hb2⟩ (by rw [hlen, hb3]; omega) hne
        rw [hlen, hb3, show pbits - 1 - 2 = pbits - 3 by omega] at h4
        omega

/-- C66. Whatever the random tape, a returned prime has its two top bits set. -/
theorem C66_top_bits (isPrime : Nat → Bool) (pbits : Nat) (fuel : Nat) (tape : Bytes) (P Q : Nat)
    (h : GenerateRandomSafePrime isPrime pbits fuel tape = some (.ok (P, Q))) : 3 * 2 ^ (pbits - 2) < P ∧ P < 2 ^ pbits := by
  obtain ⟨h3, h1, h2, -⟩ := C66_search_result _ _ _ _ _ _ h
  have hb : bitLen (P : Int) = pbits := by exact_mod_cast h2
  have hlt := Common.lt_two_pow_bitLen P
  rw [hb] at hlt
  refine ⟨?_, hlt⟩
  unfold GenerateRandomSafePrime at h
  rw [if_neg (by omega), Int.toNat_natCast] at h
  have hq := safePrimeLoop_ge (by omega) _ _ _ _ h
  have e : 2 ^ (pbits - 2) = 2 ^ (pbits - 3) * 2 := by
    rw [← pow_succ]; congr 1; omega
  rw [h1, e]
  omega

/-- C66. So the product of two returned primes of one size has exactly twice as many bits: a modulus made of them is never one bit short. -/
theorem C66_product_size (isPrime isPrime' : Nat → Bool) (pbits fuel fuel' : Nat) (tape tape' : Bytes) (P Q P' Q' : Nat)
    (h : GenerateRandomSafePrime isPrime pbits fuel tape = some (.ok (P, Q)))
    (h' : GenerateRandomSafePrime isPrime' pbits fuel' tape' = some (.ok (P', Q'))) : bitLen ((P * P' : Nat) : Int) = 2 * pbits := by
  obtain ⟨a1, a2⟩ := C66_top_bits _ _ _ _ _ _ h
  obtain ⟨b1, b2⟩ := C66_top_bits _ _ _ _ _ _ h'
  have h3 := (C66_search_result _ _ _ _ _ _ h).1
  have hp : 3 ≤ pbits := by omega
  rw [Common.bitLen_nat]
  apply le_antisymm
  · rw [Nat.size_le, two_mul, pow_add]
    exact Nat.mul_lt_mul'' a2 b2
  · have : 2 * pbits - 1 < Nat.size (P * P') := by
      rw [Nat.lt_size]
      have e : 2 * pbits - 1 = (pbits - 2) + (pbits - 2) + 3 := by omega
      rw [e, pow_add, pow_add]
      have := Nat.mul_le_mul a1.le b1.le
      generalize 2 ^ (pbits - 2) = A at *
      generalize P * P' = B at *
      have e2 : 3 * A * (3 * A) = 9 * (A * A) := by ring
      rw [e2] at this
      have : A * A * 2 ^ 3 ≤ 9 * (A * A) := by omega
      omega
    omega

/-- Non-vacuity: 2039 has 11 bits, the two top ones set; its square has 22. -/
theorem C66_size_case : GenerateRandomSafePrime (fun q => q == 1019) (11 : Nat) 1 [0x03, 0xfb] = some (.ok (2039, 1019)) ∧
    bitLen ((2039 * 2039 : Nat) : Int) = 22 := by
  decide +kernel

end Tss.Alice
