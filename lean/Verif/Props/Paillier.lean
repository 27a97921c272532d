import Verif.Lemmas.Paillier
import Verif.Props.Common
/-
C30-C33: the Binance Paillier scheme of crypto/paillier.
-/
namespace Tss.Paillier
open Tss Common

/-! ## C30 -/

/-- Encryption with randomness `x`: what the call returns. -/
theorem encrypt_spec {N m : ℤ} {fuel : ℕ} {tape : Bytes} {c x : ℤ} {rest : Bytes}
    (h : EncryptAndReturnRandomness N m fuel tape = some (.ok (c, x, rest))) :
    0 ≤ m ∧ m < N ∧ 1 ≤ x ∧ x < N ∧ Int.gcd x N = 1 ∧ cipher N m x = some c := by
  unfold EncryptAndReturnRandomness at h
  split at h
  · cases h
  · next hr =>
    cases hg : GetRandomPositiveRelativelyPrimeInt (some N) fuel tape with
    | none => simp [hg] at h
    | some r =>
      cases r with
      | err e => simp [hg] at h
      | panic => simp [hg] at h
      | ok p =>
        obtain ⟨x', rest'⟩ := p
        cases x' with
        | none => simp [hg] at h
        | some x' =>
          simp only [hg] at h
          cases hc : cipher N m x' with
          | none => simp [hc] at h
          | some c' =>
            simp only [hc, Option.some.injEq, Res.ok.injEq, Prod.mk.injEq] at h
            obtain ⟨rfl, rfl, rfl⟩ := h
            obtain ⟨M, hM, h1, h2, h3⟩ := (C04_relatively_prime _ _ _ _ _ hg).2 _ rfl
            cases hM
            exact ⟨by omega, by omega, h1, h2, h3, hc⟩

/-- C30: encryption refuses exactly the plaintexts outside `[0,N)`, with the "too large or < 0" error, and
returns no other error. -/
theorem C30_encrypt_rejects (N m : ℤ) (fuel : ℕ) (tape : Bytes) (e : PErr) :
    EncryptAndReturnRandomness N m fuel tape = some (.err e) ↔ e = .tooLong ∧ (m < 0 ∨ N ≤ m) := by
  unfold EncryptAndReturnRandomness
  split
  · next h =>
    simp only [Option.some.injEq, Res.err.injEq]
    constructor
    · rintro rfl; exact ⟨rfl, by omega⟩
    · rintro ⟨rfl, -⟩; rfl
  · next h =>
    have hnot : ¬ (m < 0 ∨ N ≤ m) := by omega
    simp only [hnot, and_false, iff_false]
    cases hg : GetRandomPositiveRelativelyPrimeInt (some N) fuel tape with
    | none => simp
    | some r =>
      cases r with
      | err e => simp
      | panic => simp
      | ok p =>
        obtain ⟨x', rest'⟩ := p
        cases x' with
        | none => simp
        | some x' => cases hc : cipher N m x' <;> simp [hc]

/-- C30: for distinct primes P, Q with gcd(PQ, (P-1)(Q-1)) = 1 and the key GenerateKeyPair makes from them, decrypting
what encryption returned gives the plaintext back, whatever the randomness. -/
theorem C30_decrypt_encrypt (P Q : ℕ) (hP : P.Prime) (hQ : Q.Prime) (hne : P ≠ Q)
    (hcop : Nat.gcd (P * Q) ((P - 1) * (Q - 1)) = 1) (m : ℤ) (fuel : ℕ) (tape : Bytes) (c x : ℤ) (rest : Bytes)
    (h : EncryptAndReturnRandomness (mkKey P Q).N m fuel tape = some (.ok (c, x, rest))) :
    Decrypt (mkKey P Q) c = .ok m ∧ 0 ≤ c ∧ c < (mkKey P Q).N * (mkKey P Q).N := by
  have g : GoodKey P Q := ⟨hP, hQ, hne, hcop⟩
  have hnz : NeZero (P * Q) := ⟨g.pos.ne'⟩
  rw [mkKey_N] at *
  obtain ⟨h0, h1, -, -, hx, hc⟩ := encrypt_spec h
  obtain ⟨c', hc', hc0, hc1, hf⟩ := cipher_some (n := P * Q) m x h0
  rw [hc'] at hc
  cases hc
  obtain ⟨k, rfl⟩ := Int.eq_ofNat_of_zero_le h0
  have := decrypt_form g hc0 hc1 hx hf
  rw [this]
  refine ⟨?_, hc0, by push_cast at hc1 ⊢; exact hc1⟩
  congr 1
  simp only [Int.toNat_natCast]
  rw [Nat.mod_eq_of_lt (by exact_mod_cast h1)]

/-- C30: every plaintext can be encrypted with every unit randomness (for moduli of at most 5000 bits): there is a tape
on which encryption uses it, and then decryption inverts it. -/
theorem C30_every_randomness (P Q : ℕ) (hP : P.Prime) (hQ : Q.Prime) (hne : P ≠ Q)
    (hcop : Nat.gcd (P * Q) ((P - 1) * (Q - 1)) = 1) (hbits : bitLen ((P * Q : ℕ) : ℤ) ≤ 5000)
    (m x : ℕ) (hm : m < P * Q) (hx1 : 1 ≤ x) (hx : x < P * Q) (hxc : Nat.Coprime x (P * Q)) :
    ∃ tape c, EncryptAndReturnRandomness (mkKey P Q).N m 1 tape = some (.ok (c, (x : ℤ), [])) ∧
      Decrypt (mkKey P Q) c = .ok (m : ℤ) := by
  have g : GoodKey P Q := ⟨hP, hQ, hne, hcop⟩
  have hnz : NeZero (P * Q) := ⟨g.pos.ne'⟩
  obtain ⟨pre, hpre⟩ := MustGetRandomInt_reach (bitLen ((P * Q : ℕ) : ℤ)) x (bitLen_pos g.pos) hbits
    (lt_pow_bitLen_sub_one hx) []
  obtain ⟨c, hc, -⟩ := cipher_some (n := P * Q) (m : ℤ) (x : ℤ) (by positivity)
  have henc : EncryptAndReturnRandomness (mkKey P Q).N m 1 (pre ++ []) = some (.ok (c, (x : ℤ), [])) := by
    rw [mkKey_N]
    unfold EncryptAndReturnRandomness
    rw [if_neg (by omega)]
    have : GetRandomPositiveRelativelyPrimeInt (some ((P * Q : ℕ) : ℤ)) 1 (pre ++ []) = some (.ok (some (x : ℤ), [])) := by
      unfold GetRandomPositiveRelativelyPrimeInt
      simp only
      rw [if_neg (by omega)]
      unfold relPrimeLoop
      simp only [hpre]
      rw [if_pos]
      rw [C04_group_test]
      refine ⟨by omega, by omega, by omega, ?_⟩
      rw [Int.gcd_natCast_natCast]; exact hxc
    rw [this]
    simp only [hc]
  exact ⟨pre ++ [], c, henc, (C30_decrypt_encrypt P Q hP hQ hne hcop m 1 _ c x [] henc).1⟩

/-- C30: with such a key decryption never crashes: ciphertexts outside `[0,N²)` are "too large", ciphertexts sharing a
factor with N are "mal-formed", every other one decrypts to a value in `[0,N)`. -/
theorem C30_decrypt_total (P Q : ℕ) (hP : P.Prime) (hQ : Q.Prime) (hne : P ≠ Q)
    (hcop : Nat.gcd (P * Q) ((P - 1) * (Q - 1)) = 1) (c : ℤ) :
    (Decrypt (mkKey P Q) c = .err .tooLong ↔ c < 0 ∨ (P * Q : ℤ) * (P * Q) ≤ c) ∧
    (Decrypt (mkKey P Q) c = .err .malFormed ↔ 0 ≤ c ∧ c < (P * Q : ℤ) * (P * Q) ∧ Int.gcd c (P * Q) ≠ 1) ∧
    ((0 ≤ c ∧ c < (P * Q : ℤ) * (P * Q) ∧ Int.gcd c (P * Q) = 1) ↔
      ∃ m, Decrypt (mkKey P Q) c = .ok m ∧ 0 ≤ m ∧ m < P * Q) := by
  have g : GoodKey P Q := ⟨hP, hQ, hne, hcop⟩
  have hN2 : nSquare (mkKey P Q).N = ((P * Q * (P * Q) : ℕ) : ℤ) := by rw [mkKey_N, nSquare_nat]
  have e2 : (P * Q : ℤ) * (P * Q) = ((P * Q * (P * Q) : ℕ) : ℤ) := by push_cast; ring
  have e1 : (P * Q : ℤ) = ((P * Q : ℕ) : ℤ) := by push_cast; ring
  rw [e2, e1]
  by_cases hr : c < 0 ∨ ¬ c < ((P * Q * (P * Q) : ℕ) : ℤ)
  · have : Decrypt (mkKey P Q) c = .err .tooLong := by
      unfold Decrypt; simp only; rw [hN2, if_pos hr]
    rw [this]
    refine ⟨⟨fun _ => by omega, fun _ => rfl⟩, ⟨fun h => (nomatch h), fun h => by omega⟩, ⟨fun h => by omega, ?_⟩⟩
    rintro ⟨m, h, -⟩; cases h
  · by_cases hu : Int.gcd c ((P * Q : ℕ) : ℤ) = 1
    · obtain ⟨m, hd, hm, -⟩ := decrypt_char g (by omega) (by omega) hu
      rw [hd]
      refine ⟨⟨fun h => (nomatch h), fun h => by omega⟩, ⟨fun h => (nomatch h), fun h => absurd hu h.2.2⟩,
        ⟨fun _ => ⟨m, rfl, by positivity, by exact_mod_cast hm⟩, fun _ => ⟨by omega, by omega, hu⟩⟩⟩
    · have hg : 1 < Int.gcd c ((P * Q * (P * Q) : ℕ) : ℤ) := by
        have h1 : Int.gcd c ((P * Q * (P * Q) : ℕ) : ℤ) ≠ 1 := fun h => hu (gcd_sq.1 h)
        have hp : 0 < P * Q * (P * Q) := Nat.mul_pos g.pos g.pos
        have h2 : 0 < Int.gcd c ((P * Q * (P * Q) : ℕ) : ℤ) := Int.gcd_pos_of_ne_zero_right _ (by exact_mod_cast hp.ne')
        omega
      have : Decrypt (mkKey P Q) c = .err .malFormed := by
        unfold Decrypt; simp only; rw [hN2, if_neg hr, if_pos hg]
      rw [this]
      refine ⟨⟨fun h => (nomatch h), fun h => by omega⟩, ⟨fun _ => ⟨by omega, by omega, hu⟩, fun _ => rfl⟩,
        ⟨fun h => absurd h.2.2 hu, ?_⟩⟩
      rintro ⟨m, h, -⟩; cases h

/-- C30: a ciphertext determines the plaintext and the randomness. -/
theorem C30_ciphertext_binding (P Q : ℕ) (hP : P.Prime) (hQ : Q.Prime) (hne : P ≠ Q)
    (hcop : Nat.gcd (P * Q) ((P - 1) * (Q - 1)) = 1) (m m' : ℤ) (fuel fuel' : ℕ) (tape tape' : Bytes) (c x x' : ℤ)
    (rest rest' : Bytes)
    (h : EncryptAndReturnRandomness (mkKey P Q).N m fuel tape = some (.ok (c, x, rest)))
    (h' : EncryptAndReturnRandomness (mkKey P Q).N m' fuel' tape' = some (.ok (c, x', rest'))) :
    m = m' ∧ x = x' := by
  have g : GoodKey P Q := ⟨hP, hQ, hne, hcop⟩
  have hnz : NeZero (P * Q) := ⟨g.pos.ne'⟩
  have d1 := (C30_decrypt_encrypt P Q hP hQ hne hcop m fuel tape c x rest h).1
  have d2 := (C30_decrypt_encrypt P Q hP hQ hne hcop m' fuel' tape' c x' rest' h').1
  rw [d1] at d2
  cases d2
  refine ⟨rfl, ?_⟩
  rw [mkKey_N] at h h'
  obtain ⟨h0, h1, a1, a2, ax, hc⟩ := encrypt_spec h
  obtain ⟨-, -, b1, b2, bx, hc'⟩ := encrypt_spec h'
  obtain ⟨c1, e1, -, -, f1⟩ := cipher_some (n := P * Q) m x h0
  obtain ⟨c2, e2, -, -, f2⟩ := cipher_some (n := P * Q) m x' h0
  rw [hc] at e1; cases e1
  rw [hc'] at e2; cases e2
  -- reduce modulo N: x^N = x'^N
  have hpw : (x : ZMod (P * Q * (P * Q))) ^ (P * Q) = (x' : ZMod (P * Q * (P * Q))) ^ (P * Q) := by
    obtain ⟨v, hv⟩ := exists_unit (gcd_one_add (P * Q))
    push_cast at hv
    have e : (1 : ZMod (P * Q * (P * Q))) + ((P * Q : ℕ) : ZMod (P * Q * (P * Q))) = v := by rw [hv]; push_cast; ring
    rw [f1, e] at f2
    exact (v.isUnit.pow m.toNat).mul_left_cancel f2
  have hpw1 : (x : ZMod (P * Q)) ^ (P * Q) = (x' : ZMod (P * Q)) ^ (P * Q) := by
    have h2 : ((x ^ (P * Q) : ℤ) : ZMod (P * Q * (P * Q))) = ((x' ^ (P * Q) : ℤ) : ZMod (P * Q * (P * Q))) := by
      push_cast; exact hpw
    rw [ZMod.intCast_eq_intCast_iff_dvd_sub] at h2
    have h3 : ((x ^ (P * Q) : ℤ) : ZMod (P * Q)) = ((x' ^ (P * Q) : ℤ) : ZMod (P * Q)) := by
      rw [ZMod.intCast_eq_intCast_iff_dvd_sub]
      exact dvd_trans ⟨((P * Q : ℕ) : ℤ), by push_cast; ring⟩ h2
    push_cast at h3; exact h3
  -- N is invertible modulo the totient
  obtain ⟨M, hM⟩ : ∃ M : ℕ, P * Q * M ≡ 1 [MOD (P - 1) * (Q - 1)] := by
    have hp := g.hP.one_lt
    have hq := g.hQ.one_lt
    by_cases h1 : (P - 1) * (Q - 1) = 1
    · rw [h1]; exact ⟨0, Nat.modEq_one⟩
    · have h2 : 1 < (P - 1) * (Q - 1) := by
        have : 0 < (P - 1) * (Q - 1) := Nat.mul_pos (by omega) (by omega)
        omega
      obtain ⟨M, -, hM⟩ := Nat.exists_mul_mod_eq_one_of_coprime hcop h2
      exact ⟨M, by unfold Nat.ModEq; rw [hM, Nat.mod_eq_of_lt h2]⟩
  have root : ∀ y : ℤ, Int.gcd y ((P * Q : ℕ) : ℤ) = 1 → (y : ZMod (P * Q)) ^ (P * Q * M) = y := by
    intro y hy
    have hfer := pow_eq_one_pq hP hQ hne hy (Dvd.intro _ rfl : P - 1 ∣ (P - 1) * (Q - 1)) (Dvd.intro_left _ rfl)
    have h4 := Nat.div_add_mod (P * Q * M) ((P - 1) * (Q - 1))
    have h5 := Nat.div_add_mod 1 ((P - 1) * (Q - 1))
    have l1 : (y : ZMod (P * Q)) ^ (P * Q * M) = (y : ZMod (P * Q)) ^ (P * Q * M % ((P - 1) * (Q - 1))) := by
      conv_lhs => rw [← h4]
      rw [pow_add, pow_mul, hfer, one_pow, one_mul]
    have l2 : (y : ZMod (P * Q)) = (y : ZMod (P * Q)) ^ (1 % ((P - 1) * (Q - 1))) := by
      conv_lhs => rw [← pow_one (y : ZMod (P * Q)), ← h5]
      rw [pow_add, pow_mul, hfer, one_pow, one_mul]
    rw [l1, hM, ← l2]
  have hxx : (x : ZMod (P * Q)) = x' := by
    rw [← root x ax, ← root x' bx, pow_mul _ (P * Q) M, pow_mul _ (P * Q) M, hpw1]
  exact (residue_eq (by omega) a2 (by omega) b2).2 hxx

/-! Non-vacuity: P = 11, Q = 17, a full round trip. -/
example : Encrypt 187 42 3 [255, 5] = some (.ok 34334) ∧ Decrypt (mkKey 11 17) 34334 = .ok 42 := by decide +kernel

/-! ## C31 -/

theorem decrypt_ok_inv {P Q : ℕ} (g : GoodKey P Q) {c a : ℤ} (h : Decrypt (mkKey P Q) c = .ok a) :
    ∃ k : ℕ, a = k ∧ k < P * Q ∧ 0 ≤ c ∧ c < ((P * Q * (P * Q) : ℕ) : ℤ) ∧ Int.gcd c ((P * Q : ℕ) : ℤ) = 1 ∧
      (c : ZMod (P * Q * (P * Q))) ^ (Nat.lcm (P - 1) (Q - 1)) =
        1 + ((k * Nat.lcm (P - 1) (Q - 1) : ℕ) : ZMod (P * Q * (P * Q))) * ((P * Q : ℕ) : ZMod (P * Q * (P * Q))) := by
  have ht := C30_decrypt_total P Q g.hP g.hQ g.ne g.cop c
  have e2 : (P * Q : ℤ) * (P * Q) = ((P * Q * (P * Q) : ℕ) : ℤ) := by push_cast; ring
  have e1 : (P * Q : ℤ) = ((P * Q : ℕ) : ℤ) := by push_cast; ring
  rw [e2, e1] at ht
  have hcases : 0 ≤ c ∧ c < ((P * Q * (P * Q) : ℕ) : ℤ) ∧ Int.gcd c ((P * Q : ℕ) : ℤ) = 1 := by
    by_cases hr : c < 0 ∨ ((P * Q * (P * Q) : ℕ) : ℤ) ≤ c
    · rw [ht.1.2 hr] at h; cases h
    · by_cases hu : Int.gcd c ((P * Q : ℕ) : ℤ) = 1
      · exact ⟨by omega, by omega, hu⟩
      · rw [ht.2.1.2 ⟨by omega, by omega, hu⟩] at h; cases h
  obtain ⟨h0, h1, hu⟩ := hcases
  obtain ⟨m, hd, hm, hk⟩ := decrypt_char g h0 h1 hu
  rw [hd] at h
  cases h
  exact ⟨m, rfl, hm, h0, h1, hu, (hk m).2 (Nat.mod_eq_of_lt hm)⟩

/-- C31: adding any two decryptable ciphertexts (not only honest ones) gives a ciphertext of the sum modulo N. -/
theorem C31_homoAdd (P Q : ℕ) (hP : P.Prime) (hQ : Q.Prime) (hne : P ≠ Q)
    (hcop : Nat.gcd (P * Q) ((P - 1) * (Q - 1)) = 1) (c1 c2 a b : ℤ)
    (h1 : Decrypt (mkKey P Q) c1 = .ok a) (h2 : Decrypt (mkKey P Q) c2 = .ok b) :
    ∃ c, HomoAdd (mkKey P Q).N c1 c2 = .ok c ∧ Decrypt (mkKey P Q) c = .ok ((a + b) % (P * Q : ℤ)) := by
  have g : GoodKey P Q := ⟨hP, hQ, hne, hcop⟩
  obtain ⟨k1, rfl, -, a0, a1, au, ak⟩ := decrypt_ok_inv g h1
  obtain ⟨k2, rfl, -, b0, b1, bu, bk⟩ := decrypt_ok_inv g h2
  have hpos : 0 < P * Q * (P * Q) := Nat.mul_pos g.pos g.pos
  have hnz : NeZero (P * Q * (P * Q)) := ⟨hpos.ne'⟩
  have hnz1 : NeZero (P * Q) := ⟨g.pos.ne'⟩
  have hne2 : ((P * Q * (P * Q) : ℕ) : ℤ) ≠ 0 := by exact_mod_cast hpos.ne'
  have hadd : HomoAdd (mkKey P Q).N c1 c2 = .ok (c1 * c2 % ((P * Q * (P * Q) : ℕ) : ℤ)) := by
    unfold HomoAdd
    rw [mkKey_N, nSquare_nat, if_neg (by omega), if_neg (by omega)]
    simp only [modMul]
    rw [if_neg hne2]
  refine ⟨_, hadd, ?_⟩
  have r0 := Int.emod_nonneg (c1 * c2) hne2
  have r1 := Int.emod_lt_of_pos (c1 * c2) (by exact_mod_cast hpos : (0 : ℤ) < ((P * Q * (P * Q) : ℕ) : ℤ))
  have hcast := intCast_emod (n := P * Q * (P * Q)) (c1 * c2)
  have hu : Int.gcd (c1 * c2 % ((P * Q * (P * Q) : ℕ) : ℤ)) ((P * Q : ℕ) : ℤ) = 1 := by
    rw [← gcd_sq]
    apply gcd_of_unit
    rw [hcast]
    push_cast
    obtain ⟨u, hu⟩ := exists_unit (gcd_sq.2 au)
    obtain ⟨v, hv⟩ := exists_unit (gcd_sq.2 bu)
    rw [← hu, ← hv]
    exact u.isUnit.mul v.isUnit
  obtain ⟨m, hd, -, hk⟩ := decrypt_char g r0 r1 hu
  rw [hd]
  have h0 : ((P * Q : ℕ) : ZMod (P * Q * (P * Q))) * ((P * Q : ℕ) : ZMod (P * Q * (P * Q))) = 0 := by
    have := ZMod.natCast_self (P * Q * (P * Q)); rw [Nat.cast_mul] at this; exact this
  have := (hk (k1 + k2)).1 (by
    rw [hcast, Int.cast_mul, mul_pow, ak, bk]
    generalize ((P * Q : ℕ) : ZMod (P * Q * (P * Q))) = n at *
    push_cast
    generalize ((k1 : ZMod (P * Q * (P * Q)))) = x at *
    generalize ((k2 : ZMod (P * Q * (P * Q)))) = y at *
    generalize ((Nat.lcm (P - 1) (Q - 1) : ℕ) : ZMod (P * Q * (P * Q))) = l at *
    calc (1 + x * l * n) * (1 + y * l * n) = 1 + (x + y) * l * n + x * l * y * l * (n * n) := by ring
      _ = _ := by rw [h0]; ring)
  rw [← this]
  push_cast
  rfl

/-- C31: raising any decryptable ciphertext to k multiplies its plaintext by k modulo N. -/
theorem C31_homoMult (P Q : ℕ) (hP : P.Prime) (hQ : Q.Prime) (hne : P ≠ Q)
    (hcop : Nat.gcd (P * Q) ((P - 1) * (Q - 1)) = 1) (k c1 a : ℤ) (hk0 : 0 ≤ k) (hk1 : k < P * Q)
    (h1 : Decrypt (mkKey P Q) c1 = .ok a) :
    ∃ c, HomoMult (mkKey P Q).N k c1 = .ok (some c) ∧ Decrypt (mkKey P Q) c = .ok ((k * a) % (P * Q : ℤ)) := by
  have g : GoodKey P Q := ⟨hP, hQ, hne, hcop⟩
  obtain ⟨k1, rfl, -, a0, a1, au, ak⟩ := decrypt_ok_inv g h1
  have hpos : 0 < P * Q * (P * Q) := Nat.mul_pos g.pos g.pos
  have hnz : NeZero (P * Q * (P * Q)) := ⟨hpos.ne'⟩
  have hnz1 : NeZero (P * Q) := ⟨g.pos.ne'⟩
  obtain ⟨j, rfl⟩ := Int.eq_ofNat_of_zero_le hk0
  have e1 : (P * Q : ℤ) = ((P * Q : ℕ) : ℤ) := by push_cast; ring
  rw [e1] at hk1 ⊢
  cases he : bigExp c1 (j : ℤ) ((P * Q * (P * Q) : ℕ) : ℤ) with
  | none => rw [bigExp_none] at he; omega
  | some c =>
    refine ⟨c, ?_, ?_⟩
    · unfold HomoMult
      rw [mkKey_N, nSquare_nat, if_neg (by omega), if_neg (by omega)]
      unfold modExp
      rw [he]
    · rw [bigExp_some, pw_natCast] at he
      obtain ⟨-, r0, r1, hc⟩ := he
      have hu : Int.gcd c ((P * Q : ℕ) : ℤ) = 1 := by
        rw [← gcd_sq]
        apply gcd_of_unit
        rw [hc]
        obtain ⟨u, hu⟩ := exists_unit (gcd_sq.2 au)
        rw [← hu]
        exact u.isUnit.pow j
      obtain ⟨m, hd, -, hk⟩ := decrypt_char g r0 r1 hu
      rw [hd]
      have h0 : ((P * Q : ℕ) : ZMod (P * Q * (P * Q))) * ((P * Q : ℕ) : ZMod (P * Q * (P * Q))) = 0 := by
        have := ZMod.natCast_self (P * Q * (P * Q)); rw [Nat.cast_mul] at this; exact this
      have bin : ∀ (t : ZMod (P * Q * (P * Q))) (i : ℕ), (1 + t * ((P * Q : ℕ) : ZMod (P * Q * (P * Q)))) ^ i =
          1 + i * t * ((P * Q : ℕ) : ZMod (P * Q * (P * Q))) := by
        intro t i
        generalize ((P * Q : ℕ) : ZMod (P * Q * (P * Q))) = n at *
        induction i with
        | zero => simp
        | succ i ih =>
          rw [pow_succ, ih]
          push_cast
          calc (1 + (i : ZMod (P * Q * (P * Q))) * t * n) * (1 + t * n) = 1 + (i + 1) * t * n + i * t * t * (n * n) := by ring
            _ = _ := by rw [h0]; ring
      have := (hk (j * k1)).1 (by
        rw [hc, ← pow_mul, mul_comm j, pow_mul, ak, bin]
        push_cast
        ring)
      rw [← this]
      push_cast
      rfl

/-- C31: honest ciphertexts: Decrypt(HomoAdd(Enc a, Enc b)) = a+b and Decrypt(HomoMult(k, Enc a)) = k·a, modulo N. -/
theorem C31_homomorphism (P Q : ℕ) (hP : P.Prime) (hQ : Q.Prime) (hne : P ≠ Q)
    (hcop : Nat.gcd (P * Q) ((P - 1) * (Q - 1)) = 1) (a b k : ℤ) (f1 f2 : ℕ) (t1 t2 : Bytes) (c1 c2 : ℤ)
    (h1 : Encrypt (mkKey P Q).N a f1 t1 = some (.ok c1)) (h2 : Encrypt (mkKey P Q).N b f2 t2 = some (.ok c2))
    (hk0 : 0 ≤ k) (hk1 : k < P * Q) :
    (∃ c, HomoAdd (mkKey P Q).N c1 c2 = .ok c ∧ Decrypt (mkKey P Q) c = .ok ((a + b) % (P * Q : ℤ))) ∧
    (∃ c, HomoMult (mkKey P Q).N k c1 = .ok (some c) ∧ Decrypt (mkKey P Q) c = .ok ((k * a) % (P * Q : ℤ))) := by
  have key : ∀ (m : ℤ) (f : ℕ) (t : Bytes) (c : ℤ), Encrypt (mkKey P Q).N m f t = some (.ok c) →
      Decrypt (mkKey P Q) c = .ok m := by
    intro m f t c h
    unfold Encrypt at h
    cases he : EncryptAndReturnRandomness (mkKey P Q).N m f t with
    | none => simp [he] at h
    | some r =>
      cases r with
      | err e => simp [he] at h
      | panic => simp [he] at h
      | ok p =>
        obtain ⟨c', x, rest⟩ := p
        simp only [he, Option.some.injEq, Res.ok.injEq] at h
        subst h
        exact (C30_decrypt_encrypt P Q hP hQ hne hcop m f t c' x rest he).1
  exact ⟨C31_homoAdd P Q hP hQ hne hcop c1 c2 a b (key _ _ _ _ h1) (key _ _ _ _ h2),
    C31_homoMult P Q hP hQ hne hcop k c1 a hk0 hk1 (key _ _ _ _ h1)⟩

/-- C31: operands out of range are refused, and nothing else is. -/
theorem C31_rejects (N k c1 c2 : ℤ) :
    (HomoAdd N c1 c2 = .err .tooLong ↔ c1 < 0 ∨ N * N ≤ c1 ∨ c2 < 0 ∨ N * N ≤ c2) ∧
    (HomoMult N k c1 = .err .tooLong ↔ k < 0 ∨ N ≤ k ∨ c1 < 0 ∨ N * N ≤ c1) ∧
    HomoAdd N c1 c2 ≠ .panic ∧ HomoMult N k c1 ≠ .panic := by
  unfold HomoAdd HomoMult nSquare
  refine ⟨?_, ?_, ?_, ?_⟩
  · split
    · constructor
      · intro _; omega
      · intro _; rfl
    · split
      · constructor
        · intro _; omega
        · intro _; rfl
      · next h1 h2 =>
        constructor
        · intro h; cases hm : modMul (N * N) c1 c2 <;> simp [hm] at h
        · intro h; omega
  · split
    · constructor
      · intro _; omega
      · intro _; rfl
    · split
      · constructor
        · intro _; omega
        · intro _; rfl
      · constructor
        · intro h; cases h
        · intro h; omega
  · split
    · exact fun h => nomatch h
    · split
      · exact fun h => nomatch h
      · next h1 h2 =>
        simp only [modMul]
        rw [if_neg (by omega)]
        exact fun h => nomatch h
  · split
    · exact fun h => nomatch h
    · split <;> exact fun h => nomatch h

example : Encrypt 187 100 3 [5] = some (.ok 1048) ∧ Encrypt 187 150 3 [6] = some (.ok 27409) ∧
    HomoAdd 187 1048 27409 = .ok 15083 ∧ Decrypt (mkKey 11 17) 15083 = .ok 63 ∧
    HomoMult 187 2 1048 = .ok (some 14265) ∧ Decrypt (mkKey 11 17) 14265 = .ok 13 := by decide +kernel

end Tss.Paillier
