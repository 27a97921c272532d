import Verif.Model.ModProof
import Verif.Lemmas.ModExp
import Verif.Lemmas.Go
import Mathlib.NumberTheory.LegendreSymbol.JacobiSymbol
import Mathlib.FieldTheory.Finite.Basic
/-! Number theory behind the Paillier-Blum modulus proof. -/
namespace Tss.ModProof
open Tss Common

/-- Fourth root by exponentiation in any monoid. -/
theorem fourth_root_pow {M : Type*} [Monoid M] (y : M) (m f : ℕ) (hm : y ^ m = 1) (hf : 2 * f = m + 1) :
    (y ^ (f * f % (4 * m))) ^ 4 = y := by
  have h4 : y ^ (4 * m) = 1 := by rw [mul_comm, pow_mul, hm, one_pow]
  rw [← pow_eq_pow_mod _ h4, ← pow_mul]
  have : f * f * 4 = m * (m + 2) + 1 := by
    have : f * f * 4 = (2 * f) * (2 * f) := by ring
    rw [this, hf]; ring
  rw [this, pow_succ, pow_mul, hm, one_pow, one_mul]

/-- The two primes of a Blum modulus. -/
structure Blum (P Q : ℕ) : Prop where
  hP : P.Prime
  hQ : Q.Prime
  ne : P ≠ Q
  p3 : P % 4 = 3
  q3 : Q % 4 = 3

variable {P Q : ℕ}

theorem Blum.coprime (h : Blum P Q) : P.Coprime Q := (Nat.coprime_primes h.hP h.hQ).mpr h.ne

theorem Blum.phi_eq (h : Blum P Q) : phi (P : Int) Q = ((4 * ((P / 2) * (Q / 2)) : ℕ) : Int) := by
  have h1 := h.p3; have h2 := h.q3
  obtain ⟨a, ha⟩ : ∃ a, P = 2 * a + 1 := ⟨P / 2, by omega⟩
  obtain ⟨b, hb⟩ : ∃ b, Q = 2 * b + 1 := ⟨Q / 2, by omega⟩
  have e1 : P / 2 = a := by omega
  have e2 : Q / 2 = b := by omega
  rw [e1, e2, ha, hb]; unfold phi; push_cast; ring

theorem Blum.odd_m (h : Blum P Q) : ((P / 2) * (Q / 2)) % 2 = 1 := by
  have h1 := h.p3; have h2 := h.q3
  rw [Nat.mul_mod, show P / 2 % 2 = 1 by omega, show Q / 2 % 2 = 1 by omega]

theorem Blum.m_pos (h : Blum P Q) : 0 < (P / 2) * (Q / 2) := by
  have := h.odd_m; rcases Nat.eq_zero_or_pos ((P / 2) * (Q / 2)) with h0 | h0
  · rw [h0] at this; omega
  · exact h0

theorem Blum.expo_eq (h : Blum P Q) :
    expo (P : Int) Q = (((((P / 2) * (Q / 2) + 1) / 2) * (((P / 2) * (Q / 2) + 1) / 2) % (4 * ((P / 2) * (Q / 2))) : ℕ) : Int) := by
  unfold expo
  rw [h.phi_eq]
  have : (((4 * ((P / 2) * (Q / 2)) : ℕ) : Int) + 4) / 8 = ((((P / 2) * (Q / 2) + 1) / 2 : ℕ) : Int) := by
    generalize (P / 2) * (Q / 2) = m
    push_cast; omega
  rw [this]
  push_cast; rfl

/-- A residue modulo a prime has half-order (p-1)/2. -/
theorem pow_half {p : ℕ} (hp : p.Prime) {y : Int} (h : jacobiSym y p = 1) : ((y : Int) : ZMod p) ^ (p / 2) = 1 := by
  have := Fact.mk hp
  rw [← jacobiSym.legendreSym.to_jacobiSym] at h
  rw [← legendreSym.eq_pow, h]; simp

/-- Congruence modulo N from congruence modulo both primes. -/
theorem Blum.modEq (h : Blum P Q) {a b : Int} (h1 : (a : ZMod P) = b) (h2 : (b : ZMod Q) = a) :
    a ≡ b [ZMOD ((P * Q : ℕ) : Int)] := by
  push_cast
  refine (Int.modEq_and_modEq_iff_modEq_mul (by simpa using h.coprime)).mp ⟨?_, ?_⟩
  · exact (ZMod.intCast_eq_intCast_iff _ _ _).mp h1
  · exact (ZMod.intCast_eq_intCast_iff _ _ _).mp h2.symm

/-- The prover's fourth root. -/
theorem Blum.fourth (h : Blum P Q) {y : Int} (h1 : jacobiSym y P = 1) (h2 : jacobiSym y Q = 1) :
    (y ^ (expo (P : Int) Q).toNat) ^ 4 ≡ y [ZMOD ((P * Q : ℕ) : Int)] := by
  rw [h.expo_eq, Int.toNat_natCast]
  have hf : 2 * (((P / 2) * (Q / 2) + 1) / 2) = (P / 2) * (Q / 2) + 1 := by
    have := h.odd_m; omega
  refine h.modEq ?_ ?_
  · push_cast
    refine fourth_root_pow _ _ _ ?_ hf
    rw [pow_mul, pow_half h.hP h1, one_pow]
  · push_cast
    symm
    refine fourth_root_pow _ _ _ ?_ hf
    rw [mul_comm, pow_mul, pow_half h.hQ h2, one_pow]

theorem Blum.totient (h : Blum P Q) : (Nat.totient (P * Q) : Int) = phi P Q := by
  rw [Nat.totient_mul h.coprime, Nat.totient_prime h.hP, Nat.totient_prime h.hQ]
  have := h.hP.one_le; have := h.hQ.one_le
  unfold phi; push_cast [this]; simp [Nat.cast_sub h.hP.one_le, Nat.cast_sub h.hQ.one_le]

/-- The N-th root by exponentiation with the inverse of N modulo the group order. -/
theorem nth_root {n : ℕ} {v y : Int} (hv : 0 ≤ v) (hinv : (n : Int) * v ≡ 1 [ZMOD (Nat.totient n : Int)])
    (hy : Int.gcd y n = 1) : (y ^ v.toNat) ^ n ≡ y [ZMOD (n : Int)] := by
  obtain ⟨u, hu⟩ := exists_unit hy
  refine (ZMod.intCast_eq_intCast_iff _ _ _).mp ?_
  push_cast
  rw [← hu, ← pow_mul]
  have : (u : ZMod n) ^ (v.toNat * n) = ((u ^ (v.toNat * n) : (ZMod n)ˣ) : ZMod n) := by push_cast; rfl
  rw [this]
  congr 1
  have h1 : v.toNat * n ≡ 1 [MOD Nat.totient n] := by
    rw [← Int.natCast_modEq_iff]; push_cast
    rw [Int.toNat_of_nonneg hv, mul_comm]; exact hinv
  have h2 : u ^ Nat.totient n = 1 := ZMod.pow_totient u
  rw [pow_eq_pow_iff_modEq.mpr (h1.of_dvd (orderOf_dvd_of_pow_eq_one h2)), pow_one]

/-! ### Which twist is a residue modulo both primes -/

theorem jacobi_nat (x : Int) {p : ℕ} (h : p % 2 = 1) : jacobi x (p : Int) = some (jacobiSym x p) := by
  unfold jacobi
  rw [if_neg (by omega), if_neg (by omega)]; simp

theorem isQR_nat (x : Int) {p : ℕ} (h : p % 2 = 1) : isQuadraticResidue x (p : Int) = .ok (decide (jacobiSym x p = 1)) := by
  unfold isQuadraticResidue; rw [jacobi_nat x h]

theorem jacobi_neg_one {p : ℕ} (h : p % 4 = 3) : jacobiSym (-1) p = -1 := by
  rw [jacobiSym.at_neg_one (Nat.odd_iff.mpr (by omega)), ZMod.χ₄_nat_three_mod_four h]

/-- The symbol of a twist modulo a divisor of N. -/
theorem twist_symbol {p n : ℕ} (hd : p ∣ n) (h3 : p % 4 = 3) (w y : Int) (a b : Bool) :
    jacobiSym (twist n w y a b) p = (if a then -1 else 1) * ((if b then jacobiSym w p else 1) * jacobiSym y p) := by
  have hm : ∀ z : Int, jacobiSym (z % (n : Int)) p = jacobiSym z p := by
    intro z
    rw [jacobiSym.mod_left (z % (n : Int)), Int.emod_emod_of_dvd _ (Int.natCast_dvd_natCast.mpr hd), ← jacobiSym.mod_left]
  have hn : jacobiSym (-y) p = - jacobiSym y p := by
    rw [show -y = (-1) * y by ring, jacobiSym.mul_left, jacobi_neg_one h3]; ring
  unfold twist
  cases a <;> cases b <;> simp [hm, jacobiSym.mul_left, hn]

/-- A twist is congruent to the product. -/
theorem twist_modEq (n w y : Int) (a b : Bool) :
    twist n w y a b ≡ (-1) ^ a.toNat * w ^ b.toNat * y [ZMOD n] := by
  unfold twist
  cases a <;> cases b
  · simp
  · simp [Int.mod_modEq]
  · simp [Int.mod_modEq]
  · simp only [if_true, Bool.toNat_true, pow_one]
    refine (Int.mod_modEq _ _).trans ?_
    refine ((Int.ModEq.refl w).mul (Int.mod_modEq _ _)).trans ?_
    rw [show w * (-1 * y) = -1 * w * y by ring]

theorem twist_range {n w y : Int} (hn : 0 < n) (hy : 0 ≤ y) (hy' : y < n) (a b : Bool) :
    0 ≤ twist n w y a b ∧ twist n w y a b < n := by
  have h1 : ∀ z : Int, 0 ≤ z % n := fun z => Int.emod_nonneg _ (by omega)
  have h2 : ∀ z : Int, z % n < n := fun z => Int.emod_lt_of_pos _ hn
  unfold twist
  cases a <;> cases b <;> simp [h1, h2, hy, hy']

/-- The inner loop finds a twist exactly when one exists (modulo odd P and Q). -/
theorem pick_spec {n w y : Int} {P Q : ℕ} (hP : P % 2 = 1) (hQ : Q % 2 = 1) :
    (∃ a b, pick n P Q w y 4 0 = .ok (some (a, b)) ∧ jacobiSym (twist n w y a b) P = 1 ∧ jacobiSym (twist n w y a b) Q = 1) ∨
    (pick n P Q w y 4 0 = .ok none ∧
      ∀ a b, ¬ (jacobiSym (twist n w y a b) P = 1 ∧ jacobiSym (twist n w y a b) Q = 1)) := by
  have step : ∀ k j (a b : Bool), decide (j % 2 = 1) = a → decide (j / 2 % 2 = 1) = b →
      pick n P Q w y (k + 1) j =
        if jacobiSym (twist n w y a b) P = 1 ∧ jacobiSym (twist n w y a b) Q = 1 then .ok (some (a, b))
        else pick n P Q w y k (j + 1) := by
    intro k j a b ha hb
    simp only [pick]
    rw [ha, hb, isQR_nat _ hP, isQR_nat _ hQ]
    by_cases g1 : jacobiSym (twist n w y a b) P = 1
    · by_cases g2 : jacobiSym (twist n w y a b) Q = 1
      · simp [g1, g2]
      · simp [g1, g2]
    · simp [g1]
  rw [step 3 0 false false (by decide) (by decide), step 2 1 true false (by decide) (by decide),
    step 1 2 false true (by decide) (by decide), step 0 3 true true (by decide) (by decide)]
  by_cases g0 : jacobiSym (twist n w y false false) P = 1 ∧ jacobiSym (twist n w y false false) Q = 1
  · left; exact ⟨false, false, by rw [if_pos g0], g0⟩
  rw [if_neg g0]
  by_cases g1 : jacobiSym (twist n w y true false) P = 1 ∧ jacobiSym (twist n w y true false) Q = 1
  · left; exact ⟨true, false, by rw [if_pos g1], g1⟩
  rw [if_neg g1]
  by_cases g2 : jacobiSym (twist n w y false true) P = 1 ∧ jacobiSym (twist n w y false true) Q = 1
  · left; exact ⟨false, true, by rw [if_pos g2], g2⟩
  rw [if_neg g2]
  by_cases g3 : jacobiSym (twist n w y true true) P = 1 ∧ jacobiSym (twist n w y true true) Q = 1
  · left; exact ⟨true, true, by rw [if_pos g3], g3⟩
  rw [if_neg g3]
  right
  refine ⟨rfl, ?_⟩
  intro a b
  cases a <;> cases b <;> assumption

theorem gcd_symbol {y : Int} {p : ℕ} (hp : p.Prime) : jacobiSym y p ≠ 0 ↔ Int.gcd y p = 1 := by
  have := Fact.mk hp
  have : NeZero p := ⟨hp.ne_zero⟩
  rw [Ne, jacobiSym.eq_zero_iff_not_coprime, not_not]

theorem symbol_cases {y : Int} {p : ℕ} (h : jacobiSym y p ≠ 0) : jacobiSym y p = 1 ∨ jacobiSym y p = -1 := by
  rcases jacobiSym.trichotomy y p with g | g | g
  · exact absurd g h
  · exact Or.inl g
  · exact Or.inr g

/-- With a Blum modulus, W of symbol -1 and y a unit, some twist is a residue modulo both primes. -/
theorem Blum.exists_twist (h : Blum P Q) {w y : Int} (hw : jacobiSym w (P * Q) = -1)
    (hy1 : Int.gcd y P = 1) (hy2 : Int.gcd y Q = 1) :
    ∃ a b, jacobiSym (twist ((P * Q : ℕ) : Int) w y a b) P = 1 ∧ jacobiSym (twist ((P * Q : ℕ) : Int) w y a b) Q = 1 := by
  have : NeZero P := ⟨h.hP.ne_zero⟩
  have : NeZero Q := ⟨h.hQ.ne_zero⟩
  rw [jacobiSym.mul_right] at hw
  have e1 := symbol_cases ((gcd_symbol h.hP).mpr hy1)
  have e2 := symbol_cases ((gcd_symbol h.hQ).mpr hy2)
  simp only [twist_symbol (Dvd.intro _ rfl) h.p3, twist_symbol (Dvd.intro_left _ rfl) h.q3]
  have w1 : jacobiSym w P ≠ 0 := by intro g; rw [g] at hw; simp at hw
  have w2 : jacobiSym w Q ≠ 0 := by intro g; rw [g] at hw; simp at hw
  rcases symbol_cases w1 with w1 | w1 <;> rcases symbol_cases w2 with w2 | w2 <;> rw [w1, w2] at hw ⊢ <;>
    rcases e1 with e1 | e1 <;> rcases e2 with e2 | e2 <;> rw [e1, e2] <;> first
      | (simp at hw; done)
      | exact ⟨false, false, by decide⟩
      | exact ⟨true, false, by decide⟩
      | exact ⟨false, true, by decide⟩
      | exact ⟨true, true, by decide⟩

/-- With y not a unit modulo one of the primes, no twist is. -/
theorem Blum.no_twist (h : Blum P Q) {w y : Int} (hy : Int.gcd y P ≠ 1 ∨ Int.gcd y Q ≠ 1) (a b : Bool) :
    ¬ (jacobiSym (twist ((P * Q : ℕ) : Int) w y a b) P = 1 ∧ jacobiSym (twist ((P * Q : ℕ) : Int) w y a b) Q = 1) := by
  rw [twist_symbol (Dvd.intro _ rfl) h.p3, twist_symbol (Dvd.intro_left _ rfl) h.q3]
  intro ⟨g1, g2⟩
  rcases hy with hy | hy
  · have : jacobiSym y P = 0 := by_contra fun hc => hy ((gcd_symbol h.hP).mp hc)
    rw [this] at g1; simp at g1
  · have : jacobiSym y Q = 0 := by_contra fun hc => hy ((gcd_symbol h.hQ).mp hc)
    rw [this] at g2; simp at g2

/-! ### Packed bits -/

theorem packBits_pos (l : List Bool) : 0 < packBits l := by
  induction l with
  | nil => decide
  | cons b t ih => simp only [packBits]; omega

theorem packBits_testBit (l : List Bool) (i : ℕ) (h : i < l.length) : (packBits l).testBit i = l.getD i false := by
  induction l generalizing i with
  | nil => simp at h
  | cons b t ih =>
    simp only [packBits]
    cases i with
    | zero => cases b <;> simp [Nat.testBit_zero] <;> omega
    | succ i =>
      rw [Nat.testBit_succ]
      have : (2 * packBits t + if b = true then 1 else 0) / 2 = packBits t := by cases b <;> simp <;> omega
      rw [this, ih i (by simpa using h)]
      simp

theorem packBits_bitLen (l : List Bool) : bitLen (packBits l : Int) = l.length + 1 := by
  unfold bitLen
  rw [if_neg (by have := packBits_pos l; omega)]
  congr 1
  simp only [Int.natAbs_natCast]
  induction l with
  | nil => decide
  | cons b t ih =>
    have hp := packBits_pos t
    have : (packBits (b :: t)).log2 = (packBits t).log2 + 1 := by
      rw [Nat.log2_def, if_pos (by simp only [packBits]; omega)]
      have : packBits (b :: t) / 2 = packBits t := by simp only [packBits]; cases b <;> simp <;> omega
      rw [this]
    rw [this, ih]; simp

theorem bit_nat (z i : ℕ) : bit (z : Int) i = z.testBit i := by
  unfold bit
  have : (z : Int) / 2 ^ i % 2 = ((z / 2 ^ i % 2 : ℕ) : Int) := by push_cast; rfl
  rw [this, Nat.testBit_eq_decide_div_mod_eq]
  congr 1
  simp; omega

end Tss.ModProof
