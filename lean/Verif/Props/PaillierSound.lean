import Verif.Props.PaillierKey
import Mathlib.GroupTheory.Perm.Cycle.Type
import Mathlib.GroupTheory.Index
import Mathlib.Data.ZMod.Units
import Mathlib.Data.List.GetD
import Mathlib.Data.Nat.Squarefree
import Mathlib.Tactic.IntervalCases
/-
C122: what the proof about a Paillier modulus (crypto/paillier/paillier.go, Proof and Verify) proves.
-/
namespace Tss.Paillier
open Tss Common

/-- C122: the challenges can be answered: each is an N-th power modulo N. -/
def spec.Answerable (N : ℕ) (xs : List ℤ) : Prop := ∀ x ∈ xs, ∃ y : ZMod N, y ^ N = (x : ZMod N)

/-- C122: there is a proof that Verify accepts, under whatever schedule, exactly if N has no prime factor up to 1000 and the 13 challenges
derived from the inputs, all of them units, can be answered. -/
theorem C122_acceptable_iff (H : Bytes → Bytes) (o : Order) (N : ℕ) (k sX sY : ℤ) (fuel : ℕ) :
    (∃ ys : List ℤ, ys.length = 13 ∧ Verify H o (ys.map some) N k sX sY fuel = some (.ok true)) ↔
      (∀ p : ℕ, p.Prime → p ≤ 1000 → ¬ p ∣ N) ∧
      ∃ xs, GenerateXs H 13 k N sX sY fuel = some xs ∧ xs.length = 13 ∧ (∀ x ∈ xs, 1 ≤ x ∧ x < N ∧ Int.gcd x N = 1) ∧ spec.Answerable N xs := by
  constructor
  · rintro ⟨ys, hys, h⟩
    obtain ⟨h1, xs, hx, h2⟩ := (C33_accept_iff H o ys hys N k sX sY fuel).mp h
    obtain ⟨hl, hu⟩ := genXs_spec H k sX sY N fuel 13 0 0 xs hx
    refine ⟨h1, xs, hx, hl, fun x hx => (hu x hx).2, fun x hx => ?_⟩
    obtain ⟨i, hi, rfl⟩ := List.mem_iff_getElem.mp hx
    refine ⟨(ys.getD i 0 : ZMod N), ?_⟩
    rw [← h2 i (by omega), List.getD_eq_getElem _ _ hi]
  · rintro ⟨h1, xs, hx, hl, hu, ha⟩
    have hex : ∀ i : ℕ, ∃ y : ℤ, i < 13 → (xs.getD i 0 : ZMod N) = (y : ZMod N) ^ N := by
      intro i
      by_cases hi : i < 13
      · have hi' : i < xs.length := by omega
        obtain ⟨y, hy⟩ := ha (xs[i]) (List.getElem_mem hi')
        obtain ⟨z, rfl⟩ := ZMod.intCast_surjective y
        exact ⟨z, fun _ => by rw [hy, List.getD_eq_getElem _ _ hi']⟩
      · exact ⟨0, fun h => absurd h hi⟩
    choose f hf using hex
    refine ⟨(List.range 13).map f, by simp, ?_⟩
    rw [C33_accept_iff H o _ (by simp)]
    refine ⟨h1, xs, hx, fun i hi => ?_⟩
    rw [hf i hi]
    congr 2
    rw [List.getD_eq_getElem _ _ (by simpa using hi)]
    simp

/-- The power map on the units. -/
theorem kernel_large {N p : ℕ} (hN : 1 < N) (hp : p.Prime) (h1 : p ∣ N) (h2 : p ∣ Nat.totient N) :
    Nat.card {x : (ZMod N)ˣ // ∃ y : ZMod N, y ^ N = x} * p ≤ Nat.totient N := by
  classical
  have : NeZero N := ⟨by omega⟩
  have : Fact p.Prime := ⟨hp⟩
  let f : (ZMod N)ˣ →* (ZMod N)ˣ := powMonoidHom N
  have e1 : Nat.card {x : (ZMod N)ˣ // ∃ y : ZMod N, y ^ N = x} = Nat.card f.range := by
    refine Nat.card_congr (Equiv.subtypeEquivRight fun x => ?_)
    constructor
    · rintro ⟨y, hy⟩
      have hu : IsUnit (y ^ N) := by rw [hy]; exact x.isUnit
      obtain ⟨u, rfl⟩ := (isUnit_pow_iff (by omega : N ≠ 0)).mp hu
      exact ⟨u, Units.ext (by rw [← hy]; rfl)⟩
    · rintro ⟨u, rfl⟩
      exact ⟨u, rfl⟩
  have hcard : Fintype.card (ZMod N)ˣ = Nat.totient N := ZMod.card_units_eq_totient N
  obtain ⟨g, hg⟩ := exists_prime_orderOf_dvd_card p (by rw [hcard]; exact h2)
  have hker : p ≤ Nat.card f.ker := by
    have hmem : g ∈ f.ker := by
      rw [MonoidHom.mem_ker]
      show g ^ N = 1
      exact orderOf_dvd_iff_pow_eq_one.mp (hg ▸ h1)
    have hle : Subgroup.zpowers g ≤ f.ker := by rw [Subgroup.zpowers_le]; exact hmem
    have := Subgroup.card_le_of_le hle
    rw [Nat.card_zpowers, hg] at this
    exact this
  have hmul : Nat.card f.ker * Nat.card f.range = Nat.totient N := by
    rw [← Subgroup.index_ker, Subgroup.card_mul_index, Nat.card_eq_fintype_card, hcard]
  rw [e1, ← hmul, Nat.mul_comm]
  exact Nat.mul_le_mul_right _ hker

/-- C122: a modulus that shares a factor with its totient and has no prime factor up to 1000: at most one in 1009^13 of the challenges can
be answered, whatever the prover does and knows. -/
theorem C122_bad_modulus (N : ℕ) (hN : 1 < N) (hs : ∀ p : ℕ, p.Prime → p ≤ 1000 → ¬ p ∣ N) (hbad : Nat.gcd N (Nat.totient N) ≠ 1) :
    Nat.card {xs : Fin 13 → (ZMod N)ˣ // ∀ i, ∃ y : ZMod N, y ^ N = xs i} * 1009 ^ 13 ≤ Nat.card (Fin 13 → (ZMod N)ˣ) := by
  obtain ⟨p, hp, hpd⟩ := Nat.exists_prime_and_dvd hbad
  have h1 := (Nat.dvd_gcd_iff.mp hpd).1
  have h2 := (Nat.dvd_gcd_iff.mp hpd).2
  have hge : 1009 ≤ p := by
    by_contra hlt
    have h1000 : 1000 < p := by
      by_contra hle
      exact hs p hp (by omega) h1
    have : p < 1009 := by omega
    interval_cases p <;> revert hp <;> norm_num
  have : NeZero N := ⟨by omega⟩
  have key := kernel_large hN hp h1 h2
  rw [Nat.card_congr (Equiv.subtypePiEquivPi (p := fun (_ : Fin 13) (x : (ZMod N)ˣ) => ∃ y : ZMod N, y ^ N = x)), Nat.card_pi, Nat.card_pi,
    Finset.prod_const, Finset.prod_const, Finset.card_univ, Fintype.card_fin, ← Nat.mul_pow]
  refine Nat.pow_le_pow_left ?_ 13
  have e : Nat.card (ZMod N)ˣ = Nat.totient N := by rw [Nat.card_eq_fintype_card, ZMod.card_units_eq_totient]
  rw [e]
  exact (Nat.mul_le_mul_left _ hge).trans key

/-- C122: a modulus that shares no factor with its totient is square-free, and each unit has exactly one N-th root among the units: every
challenge has exactly one answer. -/
theorem C122_good_modulus (N : ℕ) (hN : 1 < N) (hgood : Nat.gcd N (Nat.totient N) = 1) :
    Squarefree N ∧ ∀ x : (ZMod N)ˣ, ∃! y : ZMod N, y ^ N = x := by
  have : NeZero N := ⟨by omega⟩
  constructor
  · rw [Nat.squarefree_iff_prime_squarefree]
    intro p hp hpp
    have hd : p ∣ Nat.totient N := by
      have : Nat.totient (p * p) ∣ Nat.totient N := Nat.totient_dvd_of_dvd hpp
      rw [Nat.totient_mul_of_prime_of_dvd hp (dvd_refl p)] at this
      exact (Dvd.intro _ rfl).trans this
    have : p ∣ 1 := hgood ▸ Nat.dvd_gcd ((Dvd.intro _ rfl).trans hpp) hd
    exact hp.one_lt.ne' (Nat.dvd_one.mp this)
  · intro x
    have hcop : (Nat.card (ZMod N)ˣ).Coprime N := by
      rw [Nat.card_eq_fintype_card, ZMod.card_units_eq_totient]
      exact Nat.coprime_comm.mp hgood
    refine ⟨((powCoprime hcop).symm x : (ZMod N)ˣ), ?_, fun y hy => ?_⟩
    · have := (powCoprime hcop).apply_symm_apply x
      rw [powCoprime_apply] at this
      rw [← this, Units.val_pow_eq_pow_val, this]
    · have hu : IsUnit (y ^ N) := by rw [hy]; exact x.isUnit
      obtain ⟨u, rfl⟩ := (isUnit_pow_iff (by omega : N ≠ 0)).mp hu
      congr 1
      rw [Equiv.eq_symm_apply, powCoprime_apply]
      exact Units.ext (by rw [← hy]; rfl)

/-- C122: so for such a modulus without small factors a proof that Verify accepts exists for all inputs for which the challenges are found. -/
theorem C122_good_accepted (H : Bytes → Bytes) (o : Order) (N : ℕ) (hN : 1 < N) (hs : ∀ p : ℕ, p.Prime → p ≤ 1000 → ¬ p ∣ N)
    (hgood : Nat.gcd N (Nat.totient N) = 1) (k sX sY : ℤ) (fuel : ℕ) (xs : List ℤ) (hxs : GenerateXs H 13 k N sX sY fuel = some xs) :
    ∃ ys : List ℤ, ys.length = 13 ∧ Verify H o (ys.map some) N k sX sY fuel = some (.ok true) := by
  obtain ⟨hl, hu⟩ := genXs_spec H k sX sY N fuel 13 0 0 xs hxs
  refine (C122_acceptable_iff H o N k sX sY fuel).mpr ⟨hs, xs, hxs, hl, fun x hx => (hu x hx).2, fun x hx => ?_⟩
  obtain ⟨-, h1, -, h3⟩ := hu x hx
  obtain ⟨n, rfl⟩ : ∃ n : ℕ, x = n := ⟨x.toNat, by omega⟩
  rw [Int.gcd_natCast_natCast] at h3
  obtain ⟨y, hy, -⟩ := (C122_good_modulus N hN hgood).2 (ZMod.unitOfCoprime n h3)
  exact ⟨y, by rw [hy, ZMod.coe_unitOfCoprime]; simp⟩

/-- C122, non-vacuity: the square of the prime 1009 is a bad modulus without small factors, and 1009*1013 a good one. -/
theorem C122_case : (∀ p : ℕ, p.Prime → p ≤ 1000 → ¬ p ∣ 1009 ^ 2) ∧ Nat.gcd (1009 ^ 2) (Nat.totient (1009 ^ 2)) ≠ 1 ∧
    (∀ p : ℕ, p.Prime → p ≤ 1000 → ¬ p ∣ 1009 * 1013) ∧ Nat.gcd (1009 * 1013) (Nat.totient (1009 * 1013)) = 1 := by
  have q1 : Nat.Prime 1009 := by norm_num
  have q2 : Nat.Prime 1013 := by norm_num
  refine ⟨fun p hp hle hd => ?_, ?_, fun p hp hle hd => ?_, ?_⟩
  · have := (Nat.prime_dvd_prime_iff_eq hp q1).mp (hp.dvd_of_dvd_pow hd)
    omega
  · rw [Nat.totient_prime_pow q1 (by norm_num)]
    norm_num
  · rcases hp.dvd_mul.mp hd with h | h
    · have := (Nat.prime_dvd_prime_iff_eq hp q1).mp h; omega
    · have := (Nat.prime_dvd_prime_iff_eq hp q2).mp h; omega
  · rw [Nat.totient_mul (by norm_num), Nat.totient_prime q1, Nat.totient_prime q2]
    norm_num

end Tss.Paillier
