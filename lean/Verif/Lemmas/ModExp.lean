import Verif.Lemmas.Go
import Mathlib.Data.ZMod.Basic
import Mathlib.Data.ZMod.Units
import Mathlib.NumberTheory.Basic
import Mathlib.RingTheory.Coprime.Lemmas
import Mathlib.Tactic.Ring
/-
`math/big` modular exponentiation as powers in `ZMod n`, with integer exponents.
-/
namespace Tss

/-- Integer power in `ZMod n`: negative exponents use the modular inverse. -/
def pw {n : ℕ} (x : ZMod n) (y : ℤ) : ZMod n := if 0 ≤ y then x ^ y.toNat else x⁻¹ ^ (-y).toNat

theorem pw_unit {n : ℕ} (u : (ZMod n)ˣ) (y : ℤ) : pw (u : ZMod n) y = ((u ^ y : (ZMod n)ˣ) : ZMod n) := by
  unfold pw
  split
  · next h =>
    obtain ⟨k, rfl⟩ := Int.eq_ofNat_of_zero_le h
    simp
  · next h =>
    obtain ⟨k, hk⟩ := Int.eq_ofNat_of_zero_le (by omega : 0 ≤ -y)
    have : y = -(k : ℤ) := by omega
    subst this
    simp [ZMod.inv_coe_unit]

theorem pw_natCast {n : ℕ} (x : ZMod n) (k : ℕ) : pw x (k : ℤ) = x ^ k := by simp [pw]

theorem coe_modInverse {n : ℕ} [NeZero n] {g x : ℤ} (h : modInverse g n = some x) :
    (x : ZMod n) = (g : ZMod n)⁻¹ := by
  have hn : (n : ℤ) ≠ 0 := by exact_mod_cast NeZero.ne n
  have hs := modInverse_spec hn h
  have : (g : ZMod n) * (x : ZMod n) = 1 := by
    have h1 : ((g * x : ℤ) : ZMod n) = ((1 : ℤ) : ZMod n) := by
      rw [ZMod.intCast_eq_intCast_iff]
      exact hs.2.2
    push_cast at h1
    exact h1
  exact (ZMod.inv_eq_of_mul_eq_one n _ _ this).symm

theorem intCast_emod {n : ℕ} (a : ℤ) : ((a % (n : ℤ) : ℤ) : ZMod n) = (a : ZMod n) := by
  rw [ZMod.intCast_eq_intCast_iff]; exact Int.mod_modEq a n

/-- Two residues in `[0, n)` are equal iff their classes are. -/
theorem residue_eq {n : ℕ} {a b : ℤ} (ha : 0 ≤ a) (ha' : a < n) (hb : 0 ≤ b) (hb' : b < n) :
    a = b ↔ (a : ZMod n) = (b : ZMod n) := by
  rw [ZMod.intCast_eq_intCast_iff]
  constructor
  · rintro rfl; exact Int.ModEq.refl _
  · intro h
    have : a % n = b % n := h
    rwa [Int.emod_eq_of_lt ha ha', Int.emod_eq_of_lt hb hb'] at this

/-- `Exp` with a positive modulus: defined iff the exponent is non-negative or the base invertible, and then
the residue of the power. -/
theorem bigExp_some {n : ℕ} [NeZero n] (x y r : ℤ) :
    bigExp x y n = some r ↔ (0 ≤ y ∨ Int.gcd x n = 1) ∧ 0 ≤ r ∧ r < n ∧ (r : ZMod n) = pw (x : ZMod n) y := by
  have hn : (n : ℤ) ≠ 0 := by exact_mod_cast NeZero.ne n
  have hpos : 0 < (n : ℤ) := by omega
  unfold bigExp
  rw [if_neg hn]
  have fin : ∀ a : ℤ, (some (a % (n : ℤ)) = some r ↔ 0 ≤ r ∧ r < n ∧ (r : ZMod n) = (a : ZMod n)) := by
    intro a
    have h0 := Int.emod_nonneg a hn
    have h1 := Int.emod_lt_of_pos a hpos
    rw [Option.some.injEq]
    constructor
    · rintro rfl; exact ⟨h0, h1, intCast_emod a⟩
    · rintro ⟨ha, hb, hc⟩
      rw [residue_eq h0 h1 ha hb, hc, intCast_emod]
  split
  · next hy =>
    cases hm : modInverse x n with
    | none =>
      rw [modInverse_eq_none] at hm
      simp only [reduceCtorEq, false_iff]
      rintro ⟨h, -⟩
      omega
    | some xi =>
      have hg : Int.gcd x n = 1 := by rw [← modInverse_isSome, hm]; rfl
      simp only
      rw [fin]
      have e : ((xi ^ (-y).toNat : ℤ) : ZMod n) = pw (x : ZMod n) y := by
        unfold pw
        rw [if_neg (by omega)]
        push_cast
        rw [coe_modInverse hm]
      rw [e]
      simp [hg]
  · next hy =>
    rw [fin]
    have e : ((x ^ y.toNat : ℤ) : ZMod n) = pw (x : ZMod n) y := by
      unfold pw; rw [if_pos (by omega)]; push_cast; rfl
    rw [e]
    have : 0 ≤ y := by omega
    simp [this]

theorem bigExp_none {n : ℕ} [NeZero n] (x y : ℤ) :
    bigExp x y n = none ↔ y < 0 ∧ Int.gcd x n ≠ 1 := by
  have hn : (n : ℤ) ≠ 0 := by exact_mod_cast NeZero.ne n
  unfold bigExp
  rw [if_neg hn]
  split
  · next hy =>
    cases hm : modInverse x n with
    | none => rw [modInverse_eq_none] at hm; simp [hm, hy]
    | some xi =>
      have hg : Int.gcd x n = 1 := by rw [← modInverse_isSome, hm]; rfl
      simp [hg]
  · next hy => simp; omega

/-- An integer prime to `n` as a unit of `ZMod n`. -/
theorem exists_unit {n : ℕ} {x : ℤ} (h : Int.gcd x n = 1) : ∃ u : (ZMod n)ˣ, (u : ZMod n) = (x : ZMod n) := by
  have h1 : IsCoprime x (n : ℤ) := Int.isCoprime_iff_gcd_eq_one.2 h
  obtain ⟨a, b, hab⟩ := h1
  have : (x : ZMod n) * (a : ZMod n) = 1 := by
    have h2 : ((a * x + b * n : ℤ) : ZMod n) = 1 := by rw [hab]; simp
    push_cast at h2
    rw [ZMod.natCast_self, mul_zero, add_zero] at h2
    rw [mul_comm]; exact h2
  exact ⟨⟨x, a, this, by rw [mul_comm]; exact this⟩, rfl⟩

theorem gcd_of_unit {n : ℕ} [NeZero n] {x : ℤ} (h : IsUnit (x : ZMod n)) : Int.gcd x n = 1 := by
  obtain ⟨u, hu⟩ := h
  have h2 : (x : ZMod n) * ((u⁻¹ : (ZMod n)ˣ) : ZMod n) = 1 := by rw [← hu]; simp
  have h3 : ((x * (((u⁻¹ : (ZMod n)ˣ) : ZMod n).val : ℤ) : ℤ) : ZMod n) = ((1 : ℤ) : ZMod n) := by
    push_cast
    rw [ZMod.natCast_zmod_val]; exact h2
  rw [ZMod.intCast_eq_intCast_iff] at h3
  rw [← Int.isCoprime_iff_gcd_eq_one]
  obtain ⟨k, hk⟩ := h3.dvd
  refine ⟨(((u⁻¹ : (ZMod n)ˣ) : ZMod n).val : ℤ), k, ?_⟩
  linarith [hk]

theorem gcd_sq {n : ℕ} {x : ℤ} : Int.gcd x ((n * n : ℕ) : ℤ) = 1 ↔ Int.gcd x n = 1 := by
  rw [← Int.isCoprime_iff_gcd_eq_one, ← Int.isCoprime_iff_gcd_eq_one]
  push_cast
  rw [IsCoprime.mul_right_iff]
  simp

theorem gcd_one_add (n : ℕ) : Int.gcd (1 + (n : ℤ)) ((n * n : ℕ) : ℤ) = 1 := by
  rw [gcd_sq, ← Int.isCoprime_iff_gcd_eq_one]
  exact ⟨1, -1, by ring⟩

/-- Residues equal modulo `n` have equal `n`-th powers modulo `n²`. -/
theorem pow_eq_of_modEq {n : ℕ} {a b : ℤ} (h : (a : ZMod n) = (b : ZMod n)) :
    (a : ZMod (n * n)) ^ n = (b : ZMod (n * n)) ^ n := by
  rw [ZMod.intCast_eq_intCast_iff] at h
  have h1 : (n : ℤ) ∣ a - b := by
    have := h.symm.dvd; exact this
  have h2 := dvd_sub_pow_of_dvd_sub h1 1
  have h3 : ((a ^ n : ℤ) : ZMod (n * n)) = ((b ^ n : ℤ) : ZMod (n * n)) := by
    rw [ZMod.intCast_eq_intCast_iff]
    refine (Int.modEq_iff_dvd.2 ?_).symm
    rw [pow_one] at h2
    push_cast
    rw [show (n : ℤ) * n = n ^ (1 + 1) by ring]
    exact h2
  push_cast at h3
  exact h3

end Tss
