import Verif.Model.SafePrime
import Mathlib.Tactic.NormNum.Prime
import Mathlib.Tactic.IntervalCases
/-
C60: what the sieve of the safe-prime search does.
-/
namespace Tss.SafePrime
open Tss

/-- The odd primes up to 53. -/
def spec.Small (r : Nat) : Prop := r.Prime ∧ 3 ≤ r ∧ r ≤ 53

theorem small_iff (r : Nat) : r ∈ smallPrimes ↔ spec.Small r := by
  unfold spec.Small
  constructor
  · intro h
    simp only [smallPrimes, List.mem_cons, List.not_mem_nil, or_false] at h
    rcases h with rfl | rfl | rfl | rfl | rfl | rfl | rfl | rfl | rfl | rfl | rfl | rfl | rfl | rfl | rfl <;> norm_num
  · rintro ⟨hp, h1, h2⟩
    interval_cases r <;> first | (simp [smallPrimes]; done) | (exfalso; revert hp; norm_num)

theorem product_eq : smallPrimesProduct = smallPrimes.foldl (· * ·) 1 := by decide +kernel

theorem small_dvd_product {r : Nat} (h : spec.Small r) : r ∣ smallPrimesProduct := by
  have : ∀ r ∈ smallPrimes, r ∣ smallPrimesProduct := by decide +kernel
  exact this r ((small_iff r).mpr h)

/-- C60 (sieve): for more than six bits the test of `m` fails exactly when an odd prime up to 53 divides it. -/
theorem C60_sieve_exact {qBits m : Nat} (h : 6 < qBits) : hitsSmallPrime qBits m = true ↔ ∃ r, spec.Small r ∧ r ∣ m := by
  unfold hitsSmallPrime
  rw [List.any_eq_true]
  constructor
  · rintro ⟨r, hr, e⟩
    simp only [h, decide_true, Bool.true_or, Bool.and_true, decide_eq_true_eq] at e
    exact ⟨r, (small_iff r).mp hr, Nat.dvd_of_mod_eq_zero e⟩
  · rintro ⟨r, hr, e⟩
    refine ⟨r, (small_iff r).mpr hr, ?_⟩
    simp [h, Nat.mod_eq_zero_of_dvd e]

/-- C60 (sieve): a number above the table's product, or one below it that is no small prime itself, passes `isPrimeCandidate` exactly
when no odd prime up to 53 divides it (a number that is a small prime modulo the product passes that prime). -/
theorem C60_candidate_exact (n : Nat) :
    isPrimeCandidate n = true ↔ ∀ r, spec.Small r → r ∣ n → n % smallPrimesProduct = r := by
  unfold isPrimeCandidate
  simp only [List.all_eq_true, Bool.not_eq_true', Bool.and_eq_false_iff, decide_eq_false_iff_not, not_not]
  constructor
  · intro h r hr hd
    rcases h r ((small_iff r).mpr hr) with h | h
    · exfalso; apply h
      rw [Nat.mod_mod_of_dvd _ (small_dvd_product hr)]
      exact Nat.mod_eq_zero_of_dvd hd
    · exact h
  · intro h r hr
    have hs := (small_iff r).mp hr
    by_cases hd : r ∣ n
    · exact Or.inr (h r hs hd)
    · left
      rw [Nat.mod_mod_of_dvd _ (small_dvd_product hs)]
      exact fun e => hd (Nat.dvd_of_mod_eq_zero e)

/-- Skipping candidates that the sieve hits. -/
theorem deltaLoop_skip (qBits mod p q : Nat) : ∀ (k f delta : Nat), k ≤ f →
    (∀ j < k, hitsSmallPrime qBits (mod + (delta + 2 * j)) = true) →
    deltaLoop qBits mod f delta p q = deltaLoop qBits mod (f - k) (delta + 2 * k) p q
  | 0, f, delta, _, _ => by simp
  | k + 1, f, delta, hf, h => by
    obtain ⟨f, rfl⟩ : ∃ g, f = g + 1 := ⟨f - 1, by omega⟩
    conv_lhs => unfold deltaLoop
    have h0 := h 0 (by omega)
    simp only [Nat.mul_zero, Nat.add_zero] at h0
    rw [if_pos h0, deltaLoop_skip qBits mod p q k f (delta + 2) (by omega) fun j hj => by
      have := h (j + 1) (by omega)
      rwa [show delta + 2 * (j + 1) = delta + 2 + 2 * j by omega] at this]
    congr 1 <;> omega

/-- C60 (sieve): let q₀ be the candidate read and 2k the first even offset at which no odd prime up to 53 divides q₀ + 2k. If q₀ + 2k
is not 1 modulo 3 and 2(q₀ + 2k) + 1 passes the sieve too, these are the two numbers that are tested. -/
theorem C60_first_candidate {qBits : Nat} (hb : 6 < qBits) (p q0 k : Nat) (hk : k < 2 ^ 19)
    (hit : ∀ j < k, ∃ r, spec.Small r ∧ r ∣ q0 + 2 * j) (free : ∀ r, spec.Small r → ¬ r ∣ q0 + 2 * k)
    (h3 : (q0 + 2 * k) % 3 ≠ 1) (hc : isPrimeCandidate (2 * (q0 + 2 * k) + 1) = true) :
    deltaLoop qBits (q0 % smallPrimesProduct) (2 ^ 19) 0 p q0 = (2 * (q0 + 2 * k) + 1, q0 + 2 * k) := by
  have dv : ∀ r j, spec.Small r → (r ∣ q0 % smallPrimesProduct + j ↔ r ∣ q0 + j) := by
    intro r j hr
    have := (Nat.dvd_iff_mod_eq_zero (m := r) (n := q0 % smallPrimesProduct + j))
    rw [Nat.dvd_iff_mod_eq_zero, Nat.dvd_iff_mod_eq_zero, Nat.add_mod, Nat.mod_mod_of_dvd _ (small_dvd_product hr), ← Nat.add_mod]
  rw [deltaLoop_skip _ _ _ _ k (2 ^ 19) 0 (by omega) (fun j hj => by
    obtain ⟨r, hr, hd⟩ := hit j hj
    rw [C60_sieve_exact hb]
    exact ⟨r, hr, by rw [Nat.zero_add]; exact (dv r _ hr).mpr hd⟩)]
  obtain ⟨f, hf⟩ : ∃ f, 2 ^ 19 - k = f + 1 := ⟨2 ^ 19 - k - 1, by omega⟩
  rw [hf]
  unfold deltaLoop
  have nh : ¬ hitsSmallPrime qBits (q0 % smallPrimesProduct + (0 + 2 * k)) = true := by
    rw [C60_sieve_exact hb]
    rintro ⟨r, hr, hd⟩
    rw [Nat.zero_add] at hd
    exact free r hr ((dv r _ hr).mp hd)
  rw [if_neg nh]
  have eq : (if 0 < 0 + 2 * k then q0 + (0 + 2 * k) else q0) = q0 + 2 * k := by split <;> omega
  simp only [eq]
  rw [if_neg h3, Nat.mul_comm (q0 + 2 * k) 2, hc]
  rfl

/-- C60 (sieve): when the first number past the sieve is refused for being 1 modulo 3, the offsets accumulate: the sieve goes on with
q₀ + 2k, q₀ + 2(k+1), … but what is taken is q₀ + 2k + 2(k+1), which nothing has sieved. -/
theorem C60_offsets_accumulate : ∃ (q0 : Nat) (p q : Nat), deltaLoop 16 (q0 % smallPrimesProduct) (2 ^ 19) 0 0 q0 = (p, q) ∧
    (∃ r, spec.Small r ∧ r ∣ q ∧ r ≠ q) := by
  refine ⟨49197, 98407, 49203, by decide +kernel, ?_⟩
  exact ⟨7, by unfold spec.Small; norm_num, by decide +kernel, by decide +kernel⟩

/-- The hypotheses of `C60_first_candidate` hold of 49161, whose first free offset is 2. -/
example : (∀ j < 1, ∃ r, spec.Small r ∧ r ∣ 49161 + 2 * j) ∧ (∀ r, spec.Small r → ¬ r ∣ 49161 + 2 * 1) ∧ (49161 + 2 * 1) % 3 ≠ 1 ∧
    isPrimeCandidate (2 * (49161 + 2 * 1) + 1) = true := by
  refine ⟨?_, ?_, by norm_num, by decide +kernel⟩
  · intro j hj
    interval_cases j
    exact ⟨3, by unfold spec.Small; norm_num, by norm_num⟩
  · intro r hr
    have : ∀ r ∈ smallPrimes, ¬ r ∣ 49161 + 2 * 1 := by decide +kernel
    exact this r ((small_iff r).mpr hr)

end Tss.SafePrime
