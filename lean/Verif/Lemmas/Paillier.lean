import Verif.Model.Paillier
import Verif.Lemmas.ModExp
import Verif.Lemmas.Common
import Mathlib.FieldTheory.Finite.Basic
import Mathlib.Data.Nat.Prime.Basic
import Mathlib.Data.Nat.ChineseRemainder
import Mathlib.Tactic.NormNum.Prime
/-
Number theory of the Paillier scheme.
-/
namespace Tss.Paillier
open Tss Common

/-- If `a ≡ b` modulo two distinct primes, then modulo their product. -/
theorem eq_of_eq_pq {P Q : ℕ} (hP : P.Prime) (hQ : Q.Prime) (hPQ : P ≠ Q) {a b : ℤ}
    (h1 : (a : ZMod P) = b) (h2 : (a : ZMod Q) = b) : (a : ZMod (P * Q)) = b := by
  rw [ZMod.intCast_eq_intCast_iff_dvd_sub] at *
  have hc : IsCoprime (P : ℤ) (Q : ℤ) := by
    rw [Nat.isCoprime_iff_coprime]; exact (Nat.coprime_primes hP hQ).2 hPQ
  push_cast
  exact hc.mul_dvd h1 h2

/-- Fermat for a product of two primes: units raised to a common multiple of P-1 and Q-1. -/
theorem pow_eq_one_pq {P Q : ℕ} (hP : P.Prime) (hQ : Q.Prime) (hPQ : P ≠ Q) {x : ℤ} {l : ℕ}
    (hx : Int.gcd x ((P * Q : ℕ) : ℤ) = 1) (h1 : P - 1 ∣ l) (h2 : Q - 1 ∣ l) : (x : ZMod (P * Q)) ^ l = 1 := by
  have key : ∀ R : ℕ, R.Prime → R ∣ P * Q → R - 1 ∣ l → ((x ^ l : ℤ) : ZMod R) = ((1 : ℤ) : ZMod R) := by
    intro R hR hd hl
    have : Fact R.Prime := ⟨hR⟩
    have hne : (x : ZMod R) ≠ 0 := by
      intro h0
      rw [ZMod.intCast_zmod_eq_zero_iff_dvd] at h0
      have hd' : (R : ℤ) ∣ ((P * Q : ℕ) : ℤ) := by exact_mod_cast hd
      have h3 := Int.dvd_coe_gcd h0 hd'
      rw [hx] at h3
      have h4 : R ∣ 1 := by exact_mod_cast h3
      exact hR.one_lt.ne' (Nat.dvd_one.1 h4)
    obtain ⟨k, rfl⟩ := hl
    push_cast
    rw [pow_mul, ZMod.pow_card_sub_one_eq_one hne, one_pow]
  have h := eq_of_eq_pq hP hQ hPQ (key P hP (dvd_mul_right _ _) h1) (key Q hQ (dvd_mul_left _ _) h2)
  push_cast at h
  exact h

/-- Binomial: (1+N)^k = 1 + kN modulo N². -/
theorem one_add_pow_sq (N k : ℕ) : ((1 : ZMod (N * N)) + N) ^ k = 1 + k * N := by
  induction k with
  | zero => simp
  | succ k ih =>
    have h0 : (N : ZMod (N * N)) * N = 0 := by
      have := ZMod.natCast_self (N * N); push_cast at this; exact this
    rw [pow_succ, ih]
    push_cast
    calc (1 + (k : ZMod (N * N)) * N) * (1 + N) = 1 + (k + 1) * N + k * (N * N) := by ring
      _ = _ := by rw [h0]; ring

/-- Cancelling N: 1 + aN = 1 + bN modulo N² iff a = b modulo N. -/
theorem one_add_mul_inj {N : ℕ} (hN : 0 < N) {a b : ℤ} :
    (1 : ZMod (N * N)) + a * N = 1 + b * N ↔ (a : ZMod N) = b := by
  have e : ((1 : ZMod (N * N)) + a * N = 1 + b * N) ↔ (((a * N : ℤ)) : ZMod (N * N)) = ((b * N : ℤ) : ZMod (N * N)) := by
    push_cast; simp
  rw [e, ZMod.intCast_eq_intCast_iff_dvd_sub, ZMod.intCast_eq_intCast_iff_dvd_sub]
  push_cast
  have hN' : (N : ℤ) ≠ 0 := by omega
  rw [← sub_mul, mul_comm (N : ℤ) (N : ℤ)]
  exact Int.mul_dvd_mul_iff_right hN'

/-- A residue modulo N² that is 1 modulo N is `1 + L·N`. -/
theorem L_spec {N : ℕ} (hN : 1 < N) {u : ℤ} (h0 : 0 ≤ u) (hu : u < ((N * N : ℕ) : ℤ)) (h1 : (u : ZMod N) = 1) :
    (u : ZMod (N * N)) = 1 + (L u N : ℤ) * N ∧ 0 ≤ L u N ∧ L u N < N := by
  have hd : (N : ℤ) ∣ u - 1 := by
    have : ((u : ℤ) : ZMod N) = ((1 : ℤ) : ZMod N) := by simpa using h1
    rw [ZMod.intCast_eq_intCast_iff_dvd_sub] at this
    have h3 := (dvd_neg (a := (N : ℤ))).2 this
    simpa using h3
  have hN' : (0 : ℤ) < N := by omega
  obtain ⟨t, ht⟩ := hd
  have hL : L u N = t := by
    unfold L
    rw [ht, Int.mul_ediv_cancel_left _ (by omega)]
  have hu1 : u = 1 + t * N := by linarith
  rw [hL]
  refine ⟨?_, ?_, ?_⟩
  · rw [hu1]; push_cast; ring
  · have : -(N : ℤ) < N * t := by
      have : (1 : ℤ) < N := by exact_mod_cast hN
      linarith
    by_contra hc
    have h5 : t ≤ -1 := by omega
    have h6 : (N : ℤ) * t ≤ N * (-1) := mul_le_mul_of_nonneg_left h5 hN'.le
    linarith
  · push_cast at hu
    have : (N : ℤ) * t < N * N := by linarith
    exact lt_of_mul_lt_mul_left this hN'.le

/-- What a usable private key is: distinct primes whose product is prime to the totient. -/
structure GoodKey (P Q : ℕ) : Prop where
  hP : P.Prime
  hQ : Q.Prime
  ne : P ≠ Q
  cop : Nat.Coprime (P * Q) ((P - 1) * (Q - 1))

namespace GoodKey
variable {P Q : ℕ} (g : GoodKey P Q)
include g

theorem one_lt : 1 < P * Q := Nat.one_lt_mul_iff.2 ⟨g.hP.pos, g.hQ.pos, .inl g.hP.one_lt⟩
theorem pos : 0 < P * Q := Nat.mul_pos g.hP.pos g.hQ.pos

theorem phi_eq : (((P : ℤ) - 1) * ((Q : ℤ) - 1)) = (((P - 1) * (Q - 1) : ℕ) : ℤ) := by
  have := g.hP.one_lt; have := g.hQ.one_lt
  push_cast
  rw [Nat.cast_sub (by omega), Nat.cast_sub (by omega)]
  simp

theorem lambda_eq : (mkKey P Q).lambdaN = (Nat.lcm (P - 1) (Q - 1) : ℕ) := by
  have hp := g.hP.one_lt
  have hq := g.hQ.one_lt
  have e1 : (P : ℤ) - 1 = ((P - 1 : ℕ) : ℤ) := by rw [Nat.cast_sub (by omega)]; simp
  have e2 : (Q : ℤ) - 1 = ((Q - 1 : ℕ) : ℤ) := by rw [Nat.cast_sub (by omega)]; simp
  unfold mkKey
  simp only
  rw [e1, e2, Int.gcd_natCast_natCast, Nat.lcm]
  push_cast
  rfl

theorem lambda_pos : 0 < Nat.lcm (P - 1) (Q - 1) := by
  have hp := g.hP.one_lt
  have hq := g.hQ.one_lt
  exact Nat.lcm_pos (by omega) (by omega)

theorem lambda_coprime : Nat.Coprime (Nat.lcm (P - 1) (Q - 1)) (P * Q) :=
  (Nat.Coprime.coprime_dvd_right (Nat.lcm_dvd_mul _ _) g.cop).symm

end GoodKey

theorem mkKey_N (P Q : ℕ) : (mkKey P Q).N = ((P * Q : ℕ) : ℤ) := by simp [mkKey]

theorem nSquare_nat (n : ℕ) : nSquare (n : ℤ) = ((n * n : ℕ) : ℤ) := by simp [nSquare]

/-- A power that is 1 modulo N, as `Exp` computes it modulo N², has an exact `L`. -/
theorem exp_L {n l : ℕ} (hn : 1 < n) {c : ℤ} (h1 : (c : ZMod n) ^ l = 1) :
    ∃ u, bigExp c (l : ℤ) (nSquare (n : ℤ)) = some u ∧
      (c : ZMod (n * n)) ^ l = 1 + (L u (n : ℤ) : ℤ) * (n : ZMod (n * n)) := by
  have hnn : NeZero (n * n) := ⟨(Nat.mul_pos (by omega) (by omega)).ne'⟩
  rw [nSquare_nat]
  cases h : bigExp c (l : ℤ) ((n * n : ℕ) : ℤ) with
  | none => rw [bigExp_none] at h; omega
  | some u =>
    refine ⟨u, rfl, ?_⟩
    rw [bigExp_some] at h
    obtain ⟨-, h0, hu, he⟩ := h
    rw [pw_natCast] at he
    have hmod : (u : ZMod n) = 1 := by
      have e2 : ((u : ℤ) : ZMod (n * n)) = ((c ^ l : ℤ) : ZMod (n * n)) := by push_cast; exact he
      rw [ZMod.intCast_eq_intCast_iff_dvd_sub] at e2
      have e3 : ((u : ℤ) : ZMod n) = ((c ^ l : ℤ) : ZMod n) := by
        rw [ZMod.intCast_eq_intCast_iff_dvd_sub]
        exact dvd_trans ⟨(n : ℤ), by push_cast; ring⟩ e2
      rw [e3]; push_cast; exact h1
    rw [← he]
    exact (L_spec hn h0 hu hmod).1

/-- `Decrypt` of a good key in closed form: out of range or non-unit arguments are errors; otherwise the result is
the one `m < N` with c^λ = 1 + mλN modulo N². -/
theorem decrypt_char {P Q : ℕ} (g : GoodKey P Q) {c : ℤ} (h0 : 0 ≤ c) (hc : c < ((P * Q * (P * Q) : ℕ) : ℤ))
    (hu : Int.gcd c ((P * Q : ℕ) : ℤ) = 1) :
    ∃ m : ℕ, Decrypt (mkKey P Q) c = .ok (m : ℤ) ∧ m < P * Q ∧
      ∀ k : ℕ, (c : ZMod (P * Q * (P * Q))) ^ (Nat.lcm (P - 1) (Q - 1)) =
        1 + ((k * Nat.lcm (P - 1) (Q - 1) : ℕ) : ZMod (P * Q * (P * Q))) * ((P * Q : ℕ) : ZMod (P * Q * (P * Q))) ↔
          k % (P * Q) = m := by
  have hone := g.one_lt
  have hlc := g.lambda_coprime
  have fer : ∀ y : ℤ, Int.gcd y ((P * Q : ℕ) : ℤ) = 1 → (y : ZMod (P * Q)) ^ (Nat.lcm (P - 1) (Q - 1)) = 1 :=
    fun y hy => pow_eq_one_pq g.hP g.hQ g.ne hy (Nat.dvd_lcm_left _ _) (Nat.dvd_lcm_right _ _)
  unfold Decrypt
  simp only
  rw [g.lambda_eq, mkKey_N]
  generalize Nat.lcm (P - 1) (Q - 1) = l at *
  generalize P * Q = n at *
  have hnn : NeZero (n * n) := ⟨(Nat.mul_pos (by omega) (by omega)).ne'⟩
  have hnz : NeZero n := ⟨by omega⟩
  have hunit : Int.gcd c ((n * n : ℕ) : ℤ) = 1 := gcd_sq.2 hu
  have hgam : Int.gcd (gamma n) (n : ℤ) = 1 := by
    unfold gamma
    rw [← Int.isCoprime_iff_gcd_eq_one]
    exact ⟨1, -1, by ring⟩
  rw [nSquare_nat]
  rw [if_neg (by omega), if_neg (by rw [hunit]; omega)]
  obtain ⟨uc, huc, hLc⟩ := exp_L hone (fer c hu)
  obtain ⟨ug, hug, hLg⟩ := exp_L hone (fer (gamma n) hgam)
  rw [nSquare_nat] at huc hug
  rw [huc, hug]
  simp only
  have eg : ((L ug n : ℤ) : ZMod n) = ((l : ℤ) : ZMod n) := by
    rw [← one_add_mul_inj (by omega), ← hLg]
    have : ((gamma (n : ℤ) : ℤ) : ZMod (n * n)) = 1 + (n : ZMod (n * n)) := by unfold gamma; push_cast; ring
    rw [this, one_add_pow_sq]; simp
  have hul := (ZMod.isUnit_iff_coprime l n).2 hlc
  have hgcdL : Int.gcd (L ug n) (n : ℤ) = 1 := by
    apply gcd_of_unit
    rw [eg]
    simpa using hul
  cases hinv : modInverse (L ug n) n with
  | none => rw [modInverse_eq_none] at hinv; exact absurd hgcdL hinv
  | some inv =>
    simp only
    have hi := coe_modInverse hinv
    have hnI : (n : ℤ) ≠ 0 := by omega
    unfold modMul
    rw [if_neg hnI]
    have r0 := Int.emod_nonneg (L uc n * inv) hnI
    have r1 := Int.emod_lt_of_pos (L uc n * inv) (by omega : 0 < (n : ℤ))
    refine ⟨(L uc n * inv % (n : ℤ)).toNat, by simp only [Res.ok.injEq]; omega, by omega, ?_⟩
    intro k
    have e1 : ((k * l : ℕ) : ZMod (n * n)) = (((k * l : ℕ) : ℤ) : ZMod (n * n)) := by push_cast; rfl
    rw [hLc, e1, one_add_mul_inj (by omega)]
    have e2 : k % n = (L uc n * inv % (n : ℤ)).toNat ↔ ((k % n : ℕ) : ℤ) = L uc n * inv % (n : ℤ) := by omega
    rw [e2, residue_eq (n := n) (by positivity) (by exact_mod_cast Nat.mod_lt _ (by omega)) r0 r1, intCast_emod]
    push_cast
    rw [hi, eg]
    obtain ⟨u, hu'⟩ := hul
    have e3 : ((l : ℤ) : ZMod n) = u := by rw [hu']; simp
    rw [e3, ← hu', ZMod.inv_coe_unit]
    constructor
    · intro h; rw [h, mul_assoc, Units.mul_inv, mul_one]
    · intro h; rw [h, mul_assoc, Units.inv_mul, mul_one]

/-- A ciphertext of the form (1+N)^m x^N is a unit. -/
theorem form_unit {n m : ℕ} [NeZero n] {c x : ℤ} (hx : Int.gcd x (n : ℤ) = 1)
    (hf : (c : ZMod (n * n)) = (1 + (n : ZMod (n * n))) ^ m * (x : ZMod (n * n)) ^ n) : Int.gcd c (n : ℤ) = 1 := by
  have hnn : NeZero (n * n) := ⟨Nat.mul_ne_zero (NeZero.ne n) (NeZero.ne n)⟩
  rw [← gcd_sq]
  apply gcd_of_unit
  rw [hf]
  obtain ⟨u, hu⟩ := exists_unit (gcd_sq.2 hx)
  obtain ⟨v, hv⟩ := exists_unit (gcd_one_add n)
  push_cast at hv
  rw [← hu]
  have : (1 : ZMod (n * n)) + (n : ℕ) = v := by rw [hv]
  rw [this]
  exact (v.isUnit.pow m).mul (u.isUnit.pow n)

/-- What `Decrypt` returns on a ciphertext of the form (1+N)^m x^N: the plaintext modulo N. -/
theorem decrypt_form {P Q : ℕ} (g : GoodKey P Q) {c x : ℤ} {m : ℕ} (h0 : 0 ≤ c) (hc : c < ((P * Q * (P * Q) : ℕ) : ℤ))
    (hx : Int.gcd x ((P * Q : ℕ) : ℤ) = 1)
    (hf : (c : ZMod (P * Q * (P * Q))) = (1 + ((P * Q : ℕ) : ZMod (P * Q * (P * Q)))) ^ m * (x : ZMod (P * Q * (P * Q))) ^ (P * Q)) :
    Decrypt (mkKey P Q) c = .ok ((m % (P * Q) : ℕ) : ℤ) := by
  have hnz : NeZero (P * Q) := ⟨g.pos.ne'⟩
  obtain ⟨m', hd, -, hk⟩ := decrypt_char g h0 hc (form_unit hx hf)
  rw [hd, (hk m).1]
  rw [hf, mul_pow, ← pow_mul, one_add_pow_sq, ← pow_mul, mul_comm (P * Q) (Nat.lcm _ _), pow_mul]
  have h2 := pow_eq_of_modEq (n := P * Q) (a := x ^ (Nat.lcm (P - 1) (Q - 1))) (b := 1) (by
    push_cast
    have := pow_eq_one_pq g.hP g.hQ g.ne hx (Nat.dvd_lcm_left (P - 1) (Q - 1)) (Nat.dvd_lcm_right (P - 1) (Q - 1))
    exact this)
  push_cast at h2
  rw [one_pow] at h2
  rw [h2, mul_one]

/-- The ciphertext function on a positive modulus. -/
theorem cipher_some {n : ℕ} [NeZero n] (m x : ℤ) (hm : 0 ≤ m) :
    ∃ c, cipher (n : ℤ) m x = some c ∧ 0 ≤ c ∧ c < ((n * n : ℕ) : ℤ) ∧
      (c : ZMod (n * n)) = (1 + (n : ZMod (n * n))) ^ m.toNat * (x : ZMod (n * n)) ^ n := by
  have hnn : NeZero (n * n) := ⟨Nat.mul_ne_zero (NeZero.ne n) (NeZero.ne n)⟩
  have hn : ((n * n : ℕ) : ℤ) ≠ 0 := by exact_mod_cast NeZero.ne (n * n)
  unfold cipher
  rw [nSquare_nat]
  cases h1 : bigExp (gamma n) m ((n * n : ℕ) : ℤ) with
  | none => rw [bigExp_none] at h1; omega
  | some a =>
    cases h2 : bigExp x n ((n * n : ℕ) : ℤ) with
    | none => rw [bigExp_none] at h2; omega
    | some b =>
      simp only [modMul]
      rw [if_neg hn]
      rw [bigExp_some] at h1 h2
      refine ⟨_, rfl, Int.emod_nonneg _ hn, Int.emod_lt_of_pos _ (by omega), ?_⟩
      rw [intCast_emod, Int.cast_mul, h1.2.2.2, h2.2.2.2, pw_natCast]
      obtain ⟨k, rfl⟩ := Int.eq_ofNat_of_zero_le hm
      rw [pw_natCast]
      unfold gamma
      push_cast
      simp only [Int.toNat_natCast, add_comm]

theorem isPrimeB_iff (n : ℕ) : isPrimeB n = true ↔ n.Prime := by
  unfold isPrimeB
  rw [Nat.prime_def_lt]
  simp only [Bool.and_eq_true, decide_eq_true_eq, List.all_eq_true, List.mem_range, Bool.or_eq_true, ne_eq]
  constructor
  · rintro ⟨h1, h2⟩
    refine ⟨h1, fun m hm hd => ?_⟩
    rcases h2 m hm with h | h
    · interval_cases m
      · rw [Nat.zero_dvd] at hd; omega
      · rfl
    · exact absurd (Nat.mod_eq_zero_of_dvd hd) h
  · rintro ⟨h1, h2⟩
    refine ⟨h1, fun m hm => ?_⟩
    by_cases h : m < 2
    · exact .inl h
    · right
      intro hd
      have := h2 m hm (Nat.dvd_of_mod_eq_zero hd)
      omega

theorem primeScan_iff (N : ℤ) (l : List ℕ) : primeScan N l = true ↔ ∀ p ∈ l, ¬ (p : ℤ) ∣ N := by
  induction l with
  | nil => simp [primeScan]
  | cons p t ih =>
    unfold primeScan
    split
    · next h => simp [Int.dvd_of_emod_eq_zero h]
    · next h =>
      rw [ih]
      simp only [List.mem_cons, forall_eq_or_imp]
      constructor
      · intro h2; exact ⟨fun hd => h (Int.emod_eq_zero_of_dvd hd), h2⟩
      · exact fun h2 => h2.2

theorem mem_smallPrimes (p : ℕ) : p ∈ smallPrimes ↔ p.Prime ∧ p ≤ 1000 := by
  unfold smallPrimes
  rw [List.mem_filter, isPrimeB_iff, List.mem_range]
  constructor
  · rintro ⟨h1, h2⟩; exact ⟨h2, by omega⟩
  · rintro ⟨h1, h2⟩; exact ⟨by omega, h1⟩

theorem genXs_spec (H : Bytes → Bytes) (k sX sY N : ℤ) : ∀ (f need i n : ℕ) (l : List ℤ),
    genXs H k sX sY N f need i n = some l →
      l.length = need ∧ ∀ x ∈ l, 0 < N ∧ 1 ≤ x ∧ x < N ∧ Int.gcd x N = 1 := by
  intro f
  induction f with
  | zero =>
    intro need i n l h
    cases need with
    | zero => simp only [genXs, Option.some.injEq] at h; subst h; simp
    | succ need => simp [genXs] at h
  | succ f ih =>
    intro need i n l h
    cases need with
    | zero => simp only [genXs, Option.some.injEq] at h; subst h; simp
    | succ need =>
      rw [genXs] at h
      split at h
      · next hg =>
        cases hr : genXs H k sX sY N f need (i + 1) n with
        | none => simp [hr] at h
        | some t =>
          simp only [hr, Option.some.injEq] at h
          subst h
          obtain ⟨a, b⟩ := ih _ _ _ _ hr
          refine ⟨by simp [a], ?_⟩
          have hg' : 0 < N ∧ 1 ≤ ((beNat (candidate H k sX sY N i n) : ℕ) : ℤ) ∧
              ((beNat (candidate H k sX sY N i n) : ℕ) : ℤ) < N ∧
              Int.gcd ((beNat (candidate H k sX sY N i n) : ℕ) : ℤ) N = 1 := by
            revert hg
            generalize ((beNat (candidate H k sX sY N i n) : ℕ) : ℤ) = v
            intro hg
            by_cases h : 0 < N
            · simp [IsNumberInMultiplicativeGroup, h] at hg
              omega
            · simp [IsNumberInMultiplicativeGroup, h] at hg
          intro x hx
          rcases List.mem_cons.1 hx with rfl | hx
          · exact hg'
          · exact b x hx
      · exact ih _ _ _ _ h

theorem checkXs_some {N : ℕ} [NeZero N] : ∀ (xs ys : List ℤ), xs.length = ys.length →
    checkXs (N : ℤ) xs (ys.map some) =
      .ok (decide (∀ i < xs.length, (xs.getD i 0 : ZMod N) = (ys.getD i 0 : ZMod N) ^ N))
  | [], ys, h => by simp [checkXs]
  | x :: xs, [], h => by simp at h
  | x :: xs, y :: ys, h => by
    have hn : (N : ℤ) ≠ 0 := by exact_mod_cast NeZero.ne N
    simp only [List.map_cons, checkXs]
    cases hb : bigExp y N N with
    | none => rw [bigExp_none] at hb; omega
    | some r =>
      simp only
      rw [bigExp_some, pw_natCast] at hb
      obtain ⟨-, h0, h1, he⟩ := hb
      have key : x % (N : ℤ) = r ↔ (x : ZMod N) = (y : ZMod N) ^ N := by
        rw [residue_eq (Int.emod_nonneg _ hn) (Int.emod_lt_of_pos _ (by omega)) h0 h1, intCast_emod, he]
      have ih := checkXs_some (N := N) xs ys (by simpa using h)
      by_cases hx : (x : ZMod N) = (y : ZMod N) ^ N
      · rw [if_neg (by rw [not_not]; exact key.2 hx), ih]
        congr 1
        rw [decide_eq_decide]
        constructor
        · intro hall i hi
          cases i with
          | zero => simpa using hx
          | succ i => simpa using hall i (by simpa using hi)
        · intro hall i hi
          simpa using hall (i + 1) (by simpa using hi)
      · rw [if_pos (fun hc => hx (key.1 hc))]
        congr 1
        symm
        rw [decide_eq_false_iff_not]
        intro hall
        exact hx (by simpa using hall 0 (by simp))

end Tss.Paillier
