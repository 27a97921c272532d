import Verif.Props.Factor
import Verif.Props.RangeHiding
/-
C109: the proof of knowledge of the factorization (crypto/alice/zkproof/integerfactorization.go) hides the factors.
-/
namespace Tss.Factor
open Tss Alice AlicePaillier

namespace spec

/-- The numbers the prover draws from: 1 … N−2. -/
noncomputable def masks (N : ℕ) : Finset ℤ := Finset.Icc 1 ((N : ℤ) - 2)

/-- What is sent for mask r under challenge e: z^r and r + (N − φ)·e. -/
def real {N : ℕ} (z : (ZMod N)ˣ) (e : ℕ) (r : ℤ) : ZMod N × ℤ := ((z ^ r : (ZMod N)ˣ), r + (N - Nat.totient N : ℤ) * e)

/-- What somebody sends who knows N only: the response y is drawn and the commitment computed from it. -/
def simulated {N : ℕ} (z : (ZMod N)ˣ) (e : ℕ) (y : ℤ) : ZMod N × ℤ := ((z ^ (y - N * e) : (ZMod N)ˣ), y)

end spec
open spec

theorem masks_moved (N : ℕ) (c : ℤ) (hc : 0 ≤ c) : ((masks N).filter (fun x => x + c ∉ masks N)).card ≤ c.toNat := by
  have : (masks N).filter (fun x => x + c ∉ masks N) ⊆ Finset.Icc ((N : ℤ) - 1 - c) (N - 2) := by
    intro x hx
    unfold masks at hx
    simp only [Finset.mem_filter, Finset.mem_Icc] at hx ⊢
    omega
  refine (Finset.card_le_card this).trans ?_
  rw [Int.card_Icc]; omega

open Classical in
/-- C109: for each challenge e and each set T of messages, the probability over the mask that the prover's message is in T differs from the
probability that a message made up without the factors is in T by at most (N − φ(N))·e/(N − 2). -/
theorem C109_factor_hiding {N : ℕ} [NeZero N] (hN : 2 < N) (z : (ZMod N)ˣ) (e : ℕ) (T : Set (ZMod N × ℤ)) :
    |(((masks N).filter (real z e · ∈ T)).card : ℚ) / (masks N).card - (((masks N).filter (simulated z e · ∈ T)).card : ℚ) / (masks N).card| ≤
      ((N : ℚ) - Nat.totient N) * e / (N - 2) := by
  have hle : Nat.totient N ≤ N := Nat.totient_le N
  set c : ℤ := ((N : ℤ) - Nat.totient N) * e with hc
  have hc0 : 0 ≤ c := mul_nonneg (by omega) (by omega)
  have hclose := RangeProofs.count_close (masks N) (· + c) (fun a b h => by simpa using h) (real z e) (simulated z e) (fun r _ => by
    unfold real simulated
    simp only [Prod.mk.injEq]
    refine ⟨?_, by rw [hc]⟩
    congr 1
    have h1 : z ^ ((Nat.totient N : ℤ)) = 1 := by rw [zpow_natCast]; exact ZMod.pow_totient z
    have h2 : r + c - N * e = r + (Nat.totient N : ℤ) * (-e) := by rw [hc]; ring
    rw [h2, zpow_add, zpow_mul, h1, one_zpow, mul_one]) T
  have hmov := masks_moved N c hc0
  have hcard : (masks N).card = N - 2 := by unfold masks; rw [Int.card_Icc]; omega
  generalize ((masks N).filter (real z e · ∈ T)).card = R at *
  generalize ((masks N).filter (simulated z e · ∈ T)).card = S at *
  generalize ((masks N).filter (fun x => x + c ∉ masks N)).card = M at *
  rw [hcard]
  have hB : ((N - 2 : ℕ) : ℚ) = N - 2 := by push_cast [Nat.cast_sub hN.le]; ring
  rw [hB]
  have hBpos : (0 : ℚ) < N - 2 := by have : (2 : ℚ) < N := by exact_mod_cast hN
                                     linarith
  rw [← sub_div, abs_div, abs_of_pos hBpos]
  refine div_le_div_of_nonneg_right ?_ hBpos.le
  have hM : (M : ℚ) ≤ ((N : ℚ) - Nat.totient N) * e := by
    have h1 : (M : ℤ) ≤ c := by omega
    have h2 : ((M : ℤ) : ℚ) ≤ (c : ℚ) := by exact_mod_cast h1
    rw [hc] at h2
    push_cast at h2
    exact h2
  have h1 : (R : ℚ) ≤ S + M := by exact_mod_cast hclose.1
  have h2 : (S : ℚ) ≤ R + M := by exact_mod_cast hclose.2
  rw [abs_le]
  constructor <;> linarith

set_option exponentiation.threshold 3000 in
/-- C109: for a modulus of at least 2047 bits with two primes below 2¹⁰²⁴ and a challenge of 80 bits that is at most 2⁻⁹⁴⁰. -/
theorem C109_factor_bound (p q e : ℕ) (hp : p.Prime) (hq : q.Prime) (hne : p ≠ q) (hp' : p < 2 ^ 1024) (hq' : q < 2 ^ 1024)
    (hN : 2 ^ 2046 ≤ p * q) (he : e < 2 ^ 80) :
    (((p * q : ℕ) : ℚ) - Nat.totient (p * q)) * e / (((p * q : ℕ) : ℚ) - 2) ≤ 1 / 2 ^ 940 := by
  have h1 : p * q - Nat.totient (p * q) ≤ 2 ^ 1025 := by
    rw [Nat.totient_mul ((Nat.coprime_primes hp hq).mpr hne), Nat.totient_prime hp, Nat.totient_prime hq]
    obtain ⟨a, rfl⟩ : ∃ a, p = a + 1 := ⟨p - 1, by have := hp.pos; omega⟩
    obtain ⟨b, rfl⟩ : ∃ b, q = b + 1 := ⟨q - 1, by have := hq.pos; omega⟩
    simp only [Nat.add_sub_cancel]
    have : (a + 1) * (b + 1) - a * b = a + b + 1 := by
      have : (a + 1) * (b + 1) = a * b + (a + b + 1) := by ring
      rw [this, Nat.add_sub_cancel_left]
    rw [this, pow_succ 2 1024]
    omega
  have hle : Nat.totient (p * q) ≤ p * q := Nat.totient_le _
  have h2 : (((p * q : ℕ) : ℚ) - Nat.totient (p * q)) ≤ 2 ^ 1025 := by
    rw [← Nat.cast_sub hle]
    exact_mod_cast h1
  have h3 : (0 : ℚ) ≤ ((p * q : ℕ) : ℚ) - Nat.totient (p * q) := by
    rw [← Nat.cast_sub hle]; positivity
  have h4 : (e : ℚ) ≤ 2 ^ 80 := by exact_mod_cast he.le
  have h5 : (2 : ℚ) ^ 2046 ≤ ((p * q : ℕ) : ℚ) := by exact_mod_cast hN
  generalize ((p * q : ℕ) : ℚ) - Nat.totient (p * q) = u at *
  generalize ((p * q : ℕ) : ℚ) = v at *
  have hv : (0 : ℚ) < v - 2 := by
    have : (2 : ℚ) < 2 ^ 2046 := by norm_num
    linarith
  rw [div_le_div_iff₀ hv (by positivity), one_mul]
  have h6 : u * e ≤ 2 ^ 1025 * 2 ^ 80 := mul_le_mul h2 h4 (by positivity) (by positivity)
  have h7 : u * e * 2 ^ 940 ≤ 2 ^ 1025 * 2 ^ 80 * 2 ^ 940 := mul_le_mul_of_nonneg_right h6 (by positivity)
  have h8 : (2 : ℚ) ^ 1025 * 2 ^ 80 * 2 ^ 940 ≤ 2 ^ 2046 - 2 := by norm_num
  linarith

theorem attempt_of_loop {Hb : Bytes → Bytes} {primes : List Int} {N : Int} {salts : Nat → Nat → Bytes} {msg : Msg} {rest : Bytes} :
    ∀ k tape, newLoop Hb primes N salts k tape = .ok (msg, rest) → ∃ tape' j, attempt Hb primes N tape' (salts j) = .ok (msg, rest)
  | 0, _, h => by simp [newLoop] at h
  | k + 1, tape, h => by
    unfold newLoop at h
    split at h
    · next m r ha =>
      split at h
      · rw [Res.ok.injEq, Prod.mk.injEq] at h
        obtain ⟨rfl, rfl⟩ := h
        exact ⟨tape, k, ha⟩
      · exact attempt_of_loop k _ h
      · cases h
    · cases h
    · cases h

/-- C109: a message the code returns is the prover's message for the mask drawn in its last attempt and for the challenge that the verifier derives. -/
theorem C109_factor_message (Hb : Bytes → Bytes) (p q : Nat) (hp : p.Prime) (hq : q.Prime) (hne : p ≠ q) (tape rest : Bytes)
    (salts : Nat → Nat → Bytes) (msg : Msg) (z : (ZMod (p * q))ˣ) (hz : (z : ZMod (p * q)) = (spec.base Hb (p * q) : ℕ))
    (h : New Hb [(p : Int), (q : Int)] ((p * q : ℕ) : Int) salts tape = .ok (msg, rest)) :
    ∃ r ∈ masks (p * q), (∃ tape', RandomPositiveInt (((p * q : ℕ) : Int) - 1) tape' = .ok (r, rest)) ∧ (((beNat msg.X : ℕ) : ZMod (p * q)), ((beNat msg.Y : ℕ) : ℤ)) =
      real z (spec.chal Hb msg.salt (p * q) (beNat msg.X)) r := by
  unfold New at h
  split at h
  · cases h
  obtain ⟨tape', j, h⟩ := attempt_of_loop _ _ h
  obtain ⟨r, h0, h1, h2, hX, hY, -⟩ := C44_attempt Hb p q hp hq hne tape' rest (salts j) msg h
  refine ⟨r, by unfold masks; rw [Finset.mem_Icc]; omega, ⟨tape', h0⟩, ?_⟩
  unfold real
  rw [hY, Prod.mk.injEq]
  constructor
  · conv_lhs => rw [hX]
    rw [ZMod.natCast_mod, Nat.cast_pow, ← hz, zpow_natCast, Units.val_pow_eq_pow_val]
  · push_cast [Nat.cast_sub (Nat.totient_le (p * q))]
    ring

/-- Concrete: N = 35 and z = 2. -/
example : ∃ z : (ZMod 35)ˣ, (z : ZMod 35) = 2 ∧ (masks 35).card = 33 ∧ real z 1 3 = simulated z 1 14 := by
  refine ⟨ZMod.unitOfCoprime 2 (by decide), rfl, by unfold masks; rw [Int.card_Icc]; rfl, ?_⟩
  unfold real simulated
  have ht : Nat.totient 35 = 24 := by decide +kernel
  rw [ht]
  simp only [Prod.mk.injEq]
  refine ⟨?_, by norm_num⟩
  congr 1
  have h1 : (ZMod.unitOfCoprime 2 (by decide) : (ZMod 35)ˣ) ^ (24 : ℕ) = 1 := by ext; decide +kernel
  have : (14 - ((35 : ℕ) : ℤ) * ((1 : ℕ) : ℤ)) = 3 + ((24 : ℕ) : ℤ) * (-1) := by norm_num
  rw [this, zpow_add, zpow_mul, zpow_natCast _ 24, h1, one_zpow, mul_one]

end Tss.Factor
