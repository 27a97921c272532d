import Verif.Props.Paillier
/-
C32, C33: Paillier key generation and the square-free proof.
-/
namespace Tss.Paillier
open Tss Common

/-! ## C32 -/

theorem genLoop_spec {ε : Type} (half : ℤ) (deliver : ℕ → Res ε (List ℤ)) : ∀ (f i : ℕ) (sk : PrivateKey),
    genLoop half deliver f i = some (.ok sk) →
      ∃ j P Q rest, i ≤ j ∧ deliver j = .ok (P :: Q :: rest) ∧ half - 3 ≤ bitLen (P - Q) ∧ sk = mkKey P Q ∧
        ∀ a, i ≤ a → a < j → ∃ P' Q' r', deliver a = .ok (P' :: Q' :: r') ∧ (bitLen (P' - Q') : ℤ) < half - 3 := by
  intro f
  induction f with
  | zero => intro i sk h; simp [genLoop] at h
  | succ f ih =>
    intro i sk h
    rw [genLoop] at h
    cases hd : deliver i with
    | err e => simp [hd] at h
    | panic => simp [hd] at h
    | ok l =>
      rcases l with _ | ⟨P, _ | ⟨Q, rest⟩⟩
      · simp [hd] at h
      · simp [hd] at h
      · simp only [hd] at h
        split at h
        · next hb =>
          simp only [Option.some.injEq, Res.ok.injEq] at h
          exact ⟨i, P, Q, rest, le_refl _, hd, by simpa [pQBitLenDifference] using hb, h.symm, fun a h1 h2 => by omega⟩
        · next hb =>
          obtain ⟨j, P', Q', r', h1, h2, h3, h4, h5⟩ := ih (i + 1) sk h
          refine ⟨j, P', Q', r', by omega, h2, h3, h4, fun a ha1 ha2 => ?_⟩
          by_cases hai : a = i
          · subst hai
            exact ⟨P, Q, rest, hd, by simp [pQBitLenDifference] at hb; omega⟩
          · exact h5 a (by omega) ha2

/-- C32: whatever is delivered, a returned key is made from the first delivered pair whose difference is long enough:
N is their product, PhiN and LambdaN are (P-1)(Q-1) and lcm(P-1,Q-1), and from 12 modulus bits on P ≠ Q. -/
theorem C32_generated_key {ε : Type} (modulusBitLen : ℕ) (nOptional : ℕ) (deliver : ℕ → Res ε (List ℤ)) (fuel : ℕ)
    (sk : PrivateKey) (h : GenerateKeyPair modulusBitLen nOptional deliver fuel = some (.ok sk)) :
    ∃ j rest, deliver j = .ok (sk.P :: sk.Q :: rest) ∧
      (∀ a < j, ∃ P Q r, deliver a = .ok (P :: Q :: r) ∧ (bitLen (P - Q) : ℤ) < (modulusBitLen / 2 : ℕ) - 3) ∧
      ((modulusBitLen / 2 : ℕ) : ℤ) - 3 ≤ bitLen (sk.P - sk.Q) ∧
      (12 ≤ modulusBitLen → sk.P ≠ sk.Q) ∧
      sk.N = sk.P * sk.Q ∧ sk.phiN = (sk.P - 1) * (sk.Q - 1) ∧
      (1 < sk.P → 1 < sk.Q → sk.lambdaN = Int.lcm (sk.P - 1) (sk.Q - 1)) := by
  unfold GenerateKeyPair at h
  split at h
  · cases h
  · have hdiv : Int.tdiv (modulusBitLen : ℤ) 2 = ((modulusBitLen / 2 : ℕ) : ℤ) := by
      have := Int.ofNat_tdiv modulusBitLen 2
      exact_mod_cast this.symm
    rw [hdiv] at h
    obtain ⟨j, P, Q, rest, -, h1, h2, rfl, h3⟩ := genLoop_spec _ _ _ _ _ h
    refine ⟨j, rest, h1, fun a ha => h3 a (Nat.zero_le _) ha, h2, ?_, rfl, rfl, ?_⟩
    · intro h12 hPQ
      change P = Q at hPQ
      subst hPQ
      have : bitLen (P - P) = 0 := by rw [sub_self]; rfl
      rw [this] at h2
      omega
    · intro hP hQ
      change 1 < P at hP
      change 1 < Q at hQ
      change (P - 1) * (Q - 1) / (Int.gcd (P - 1) (Q - 1) : ℤ) = Int.lcm (P - 1) (Q - 1)
      obtain ⟨a, ha⟩ := Int.eq_ofNat_of_zero_le (by omega : 0 ≤ P - 1)
      obtain ⟨b, hb⟩ := Int.eq_ofNat_of_zero_le (by omega : 0 ≤ Q - 1)
      rw [ha, hb, Int.gcd_natCast_natCast, Int.lcm_natCast_natCast, Nat.lcm]
      push_cast
      rfl

theorem bitLen_double {p : ℕ} : bitLen ((2 * p + 1 : ℕ) : ℤ) = bitLen (p : ℤ) + 1 := by
  rw [bitLen_nat, bitLen_nat]
  have h := Nat.size_bit (b := true) (n := p) (by simp [Nat.bit])
  rw [Nat.bit_true_apply] at h
  omega

/-- C32: two safe primes of the same bit length give a modulus prime to its totient, so that decryption is
correct (C30). -/
theorem C32_safe_primes_good (p q : ℕ) (hp : p.Prime) (hq : q.Prime) (hP : (2 * p + 1).Prime) (hQ : (2 * q + 1).Prime)
    (hbits : bitLen ((2 * p + 1 : ℕ) : ℤ) = bitLen ((2 * q + 1 : ℕ) : ℤ)) :
    Nat.gcd ((2 * p + 1) * (2 * q + 1)) ((2 * p + 1 - 1) * (2 * q + 1 - 1)) = 1 := by
  have key : ∀ a b : ℕ, a.Prime → b.Prime → (2 * a + 1).Prime → 
      bitLen ((2 * a + 1 : ℕ) : ℤ) = bitLen ((2 * b + 1 : ℕ) : ℤ) → Nat.Coprime (2 * a + 1) (2 * b) := by
    intro a b ha hb hA hbits
    rw [Nat.Prime.coprime_iff_not_dvd hA]
    intro hd
    rcases (Nat.Prime.dvd_mul hA).1 hd with h | h
    · have := Nat.le_of_dvd (by omega) h
      have := ha.two_le
      omega
    · rcases (Nat.dvd_prime hb).1 h with h1 | h1
      · have := ha.two_le; omega
      · rw [← h1] at hbits
        have := bitLen_double (p := 2 * a + 1)
        omega
  have h1 := key p q hp hq hP hbits
  have h2 := key q p hq hp hQ hbits.symm
  have h3 : Nat.Coprime (2 * p + 1) (2 * p) := by simp
  have h4 : Nat.Coprime (2 * q + 1) (2 * q) := by simp
  have e : (2 * p + 1 - 1) * (2 * q + 1 - 1) = 2 * p * (2 * q) := by simp
  rw [e]
  exact Nat.Coprime.mul_left (Nat.Coprime.mul_right h3 h1) (Nat.Coprime.mul_right h2 h4)

/-- C32: a generated key works: if everything delivered is a pair of safe primes of `modulusBitLen/2` bits, then with the
returned key decryption inverts encryption for every plaintext. -/
theorem C32_generated_key_decrypts {ε : Type} (modulusBitLen : ℕ) (h12 : 12 ≤ modulusBitLen) (nOptional : ℕ)
    (deliver : ℕ → Res ε (List ℤ)) (fuel : ℕ) (sk : PrivateKey)
    (hsafe : ∀ j l, deliver j = .ok l → ∀ z ∈ l, ∃ p : ℕ, z = ((2 * p + 1 : ℕ) : ℤ) ∧ p.Prime ∧ (2 * p + 1).Prime ∧
      bitLen z = modulusBitLen / 2)
    (h : GenerateKeyPair modulusBitLen nOptional deliver fuel = some (.ok sk))
    (m : ℤ) (f : ℕ) (tape : Bytes) (c x : ℤ) (rest : Bytes)
    (henc : EncryptAndReturnRandomness sk.N m f tape = some (.ok (c, x, rest))) :
    Decrypt sk c = .ok m := by
  have hg := h
  obtain ⟨j, r, hd, -, -, hne, -, -, -⟩ := C32_generated_key _ _ _ _ _ h
  obtain ⟨p, hp1, hp2, hp3, hp4⟩ := hsafe j _ hd sk.P (by simp)
  obtain ⟨q, hq1, hq2, hq3, hq4⟩ := hsafe j _ hd sk.Q (by simp)
  have hsk : sk = mkKey sk.P sk.Q := by
    unfold GenerateKeyPair at hg
    split at hg
    · cases hg
    · obtain ⟨_, P, Q, _, _, _, _, rfl, _⟩ := genLoop_spec _ _ _ _ _ hg
      rfl
  rw [hsk] at henc ⊢
  have hPQ : p ≠ q := by
    intro he
    apply hne h12
    rw [hp1, hq1, he]
  have hgcd := C32_safe_primes_good p q hp2 hq2 hp3 hq3 (by rw [← hp1, ← hq1, hp4, hq4])
  have e : ∀ a b : ℤ, a = ((2 * p + 1 : ℕ) : ℤ) → b = ((2 * q + 1 : ℕ) : ℤ) →
      EncryptAndReturnRandomness (mkKey a b).N m f tape = some (.ok (c, x, rest)) → Decrypt (mkKey a b) c = .ok m := by
    rintro a b rfl rfl henc
    exact (C30_decrypt_encrypt _ _ hp3 hq3 (by omega) hgcd m f tape c x rest henc).1
  exact e _ _ hp1 hq1 henc

/-! Non-vacuity: equal primes are retried, the second pair is taken. -/
example : GenerateKeyPair (ε := Unit) 12 0 (fun i => if i = 0 then .ok [47, 47] else .ok [47, 59]) 5 =
    some (.ok ⟨2773, 1334, 2668, 47, 59⟩) := by decide +kernel

/-! ## C33 -/

/-- The challenges are units of the right number. -/
theorem xs_spec {H : Bytes → Bytes} {m : ℕ} {k N sX sY : ℤ} {fuel : ℕ} {xs : List ℤ}
    (h : GenerateXs H m k N sX sY fuel = some xs) :
    xs.length = m ∧ ∀ x ∈ xs, 0 < N ∧ 1 ≤ x ∧ x < N ∧ Int.gcd x N = 1 := genXs_spec H k sX sY N fuel m 0 0 xs h

/-- C33: what Verify accepts, for a proof of 13 numbers, under every schedule: no prime up to 1000 divides N, and each
response is an N-th root modulo N of its hash-derived challenge. -/
theorem C33_accept_iff (H : Bytes → Bytes) (o : Order) (ys : List ℤ) (hys : ys.length = 13) (N : ℕ) (k sX sY : ℤ)
    (fuel : ℕ) :
    Verify H o (ys.map some) N k sX sY fuel = some (.ok true) ↔
      (∀ p : ℕ, p.Prime → p ≤ 1000 → ¬ p ∣ N) ∧
      ∃ xs, GenerateXs H 13 k N sX sY fuel = some xs ∧
        ∀ i < 13, (xs.getD i 0 : ZMod N) = (ys.getD i 0 : ZMod N) ^ N := by
  have hscan : primeScan (N : ℤ) smallPrimes = true ↔ ∀ p : ℕ, p.Prime → p ≤ 1000 → ¬ p ∣ N := by
    rw [primeScan_iff]
    constructor
    · intro h p hp hle hd; exact h p ((mem_smallPrimes p).2 ⟨hp, hle⟩) (by exact_mod_cast hd)
    · intro h p hp hd
      obtain ⟨h1, h2⟩ := (mem_smallPrimes p).1 hp
      exact h p h1 h2 (by exact_mod_cast hd)
  rw [← hscan]
  unfold Verify verifyWith proofIters
  cases hx : GenerateXs H 13 k N sX sY fuel with
  | none => cases o <;> simp
  | some xs =>
    obtain ⟨hl, hxs⟩ := xs_spec hx
    have hN : NeZero N := by
      cases xs with
      | nil => simp at hl
      | cons x t => have := (hxs x (by simp)).1; exact ⟨by omega⟩
    have hc : onXs (N : ℤ) (ys.map some) xs =
        .ok (decide (∀ i < xs.length, (xs.getD i 0 : ZMod N) = (ys.getD i 0 : ZMod N) ^ N)) := by
      unfold onXs
      rw [if_neg (by rw [hl]; decide), checkXs_some (N := N) xs ys (by rw [hl, hys])]
    simp only [hl] at hc
    have hex : (∃ xs', some xs = some xs' ∧ ∀ i < 13, (xs'.getD i 0 : ZMod N) = (ys.getD i 0 : ZMod N) ^ N) ↔
        ∀ i < 13, (xs.getD i 0 : ZMod N) = (ys.getD i 0 : ZMod N) ^ N :=
      ⟨fun ⟨_, h1, h2⟩ => by cases h1; exact h2, fun h => ⟨xs, rfl, h⟩⟩
    rw [hex]
    by_cases hd : ∀ i < 13, (xs.getD i 0 : ZMod N) = (ys.getD i 0 : ZMod N) ^ N
    · rw [decide_eq_true hd] at hc
      rw [iff_true_intro hd, and_true]
      cases o <;> simp only [hc] <;> simp
    · rw [decide_eq_false hd] at hc
      rw [iff_false_intro hd, and_false, iff_false]
      cases o <;> simp only [hc] <;> simp

/-- C33: the answer does not depend on which goroutine reports first, for proofs without nil entries. -/
theorem C33_schedule_independent (H : Bytes → Bytes) (ys : List ℤ) (hys : ys.length = 13) (N k sX sY : ℤ) (fuel : ℕ) :
    Verify H .primesFirst (ys.map some) N k sX sY fuel = Verify H .xsFirst (ys.map some) N k sX sY fuel := by
  unfold Verify verifyWith proofIters
  cases hx : GenerateXs H 13 k N sX sY fuel with
  | none => rfl
  | some xs =>
    obtain ⟨hl, hxs⟩ := xs_spec hx
    have hpos : 0 < N := by
      cases xs with
      | nil => simp at hl
      | cons x t => exact (hxs x (by simp)).1
    obtain ⟨n, rfl⟩ := Int.eq_ofNat_of_zero_le hpos.le
    have hN : NeZero n := ⟨by omega⟩
    have hc : onXs (n : ℤ) (ys.map some) xs =
        .ok (decide (∀ i < xs.length, (xs.getD i 0 : ZMod n) = (ys.getD i 0 : ZMod n) ^ n)) := by
      unfold onXs
      rw [if_neg (by rw [hl]; decide), checkXs_some (N := n) xs ys (by rw [hl, hys])]
    generalize decide (∀ i < xs.length, (xs.getD i 0 : ZMod n) = (ys.getD i 0 : ZMod n) ^ n) = b at hc
    simp only [hc]
    cases b <;> cases hs : primeScan (n : ℤ) smallPrimes <;> rfl

/-- C33: with a nil entry the schedule does matter: for N = 6 one order answers false, the other crashes. -/
theorem C33_nil_entry_schedule_dependent :
    ∃ (pf : List (Option ℤ)) (xs : List ℤ), xs.length = 13 ∧ pf.length = 13 ∧
      verifyWith .primesFirst 6 pf (some xs) = some (.ok false) ∧ verifyWith .xsFirst 6 pf (some xs) = some .panic :=
  ⟨List.replicate 13 none, List.replicate 13 5, by decide, by decide, by decide +kernel, by decide +kernel⟩

/-- C33: a modulus divisible by a prime up to 1000 is rejected with answer false, under every schedule, even while the
challenges are still being computed. -/
theorem C33_small_factor_rejected (H : Bytes → Bytes) (o : Order) (ys : List ℤ) (hys : ys.length = 13) (N k sX sY : ℤ)
    (fuel : ℕ) (p : ℕ) (hp : p.Prime) (hle : p ≤ 1000) (hd : (p : ℤ) ∣ N) :
    Verify H o (ys.map some) N k sX sY fuel = some (.ok false) := by
  have hs : primeScan N smallPrimes = false := by
    cases h : primeScan N smallPrimes with
    | false => rfl
    | true => exact absurd hd ((primeScan_iff _ _).1 h p ((mem_smallPrimes p).2 ⟨hp, hle⟩))
  have hprim : Verify H .primesFirst (ys.map some) N k sX sY fuel = some (.ok false) := by
    unfold Verify verifyWith
    cases GenerateXs H proofIters k N sX sY fuel <;> simp [hs]
  cases o
  · exact hprim
  · rw [← C33_schedule_independent H ys hys]; exact hprim

/-- C33: a modulus below 2 without small factor makes Verify wait for ever. -/
theorem C33_negative_modulus_hangs (H : Bytes → Bytes) (o : Order) (pf : List (Option ℤ)) (N k sX sY : ℤ) (hN : N ≤ 1)
    (hs : ∀ p : ℕ, p.Prime → p ≤ 1000 → ¬ (p : ℤ) ∣ N) (fuel : ℕ) : Verify H o pf N k sX sY fuel = none := by
  have hx : GenerateXs H 13 k N sX sY fuel = none := by
    cases h : GenerateXs H 13 k N sX sY fuel with
    | none => rfl
    | some xs =>
      obtain ⟨hl, hxs⟩ := xs_spec h
      cases xs with
      | nil => simp at hl
      | cons x t => have := hxs x (by simp); omega
  have : primeScan N smallPrimes = true := by
    rw [primeScan_iff]
    intro p hp hd
    obtain ⟨h1, h2⟩ := (mem_smallPrimes p).1 hp
    exact hs p h1 h2 hd
  unfold Verify verifyWith proofIters
  rw [hx]
  cases o <;> simp [this]

/-- C33: completeness.  A proof made with the private key of distinct primes above 1000 with gcd(PQ,(P-1)(Q-1)) = 1 is
accepted under every schedule, for every curve point and key value, as soon as the verifier's challenge loop ends; and
making it does not crash. -/
theorem C33_complete (H : Bytes → Bytes) (P Q : ℕ) (hP : P.Prime) (hQ : Q.Prime) (hne : P ≠ Q)
    (hcop : Nat.gcd (P * Q) ((P - 1) * (Q - 1)) = 1) (hP' : 1000 < P) (hQ' : 1000 < Q) (k sX sY : ℤ) (fuel : ℕ)
    (xs : List ℤ) (hxs : GenerateXs H 13 k (mkKey P Q).N sX sY fuel = some xs) (o : Order) :
    ∃ pf, Proof H (mkKey P Q) k sX sY fuel = some (.ok pf) ∧
      Verify H o pf (mkKey P Q).N k sX sY fuel = some (.ok true) := by
  have g : GoodKey P Q := ⟨hP, hQ, hne, hcop⟩
  have hnz : NeZero (P * Q) := ⟨g.pos.ne'⟩
  have hphi : (mkKey P Q).phiN = (((P - 1) * (Q - 1) : ℕ) : ℤ) := g.phi_eq
  have hphipos : 0 < (P - 1) * (Q - 1) := Nat.mul_pos (by omega) (by omega)
  rw [mkKey_N] at hxs ⊢
  obtain ⟨hl, hunits⟩ := xs_spec hxs
  unfold Proof proofIters
  rw [mkKey_N, hxs, hphi]
  simp only
  cases hM : modInverse ((P * Q : ℕ) : ℤ) (((P - 1) * (Q - 1) : ℕ) : ℤ) with
  | none => rw [modInverse_eq_none, Int.gcd_natCast_natCast] at hM; exact absurd hcop hM
  | some M =>
    simp only
    refine ⟨_, rfl, ?_⟩
    obtain ⟨hM0, -, hM1⟩ := modInverse_spec (by omega) hM
    obtain ⟨M, rfl⟩ := Int.eq_ofNat_of_zero_le hM0
    have hpw : ∀ x : ℤ, ∃ y : ℤ, bigExp x (M : ℤ) ((P * Q : ℕ) : ℤ) = some y ∧ (y : ZMod (P * Q)) = (x : ZMod (P * Q)) ^ M := by
      intro x
      cases he : bigExp x (M : ℤ) ((P * Q : ℕ) : ℤ) with
      | none => rw [bigExp_none] at he; omega
      | some y => rw [bigExp_some, pw_natCast] at he; exact ⟨y, rfl, he.2.2.2⟩
    choose y hy1 hy2 using hpw
    have hmap : (xs.map fun x => bigExp x (M : ℤ) ((P * Q : ℕ) : ℤ)) = (xs.map y).map some := by
      rw [List.map_map]
      exact List.map_congr_left fun x _ => hy1 x
    rw [hmap, C33_accept_iff H o (xs.map y) (by simp [hl])]
    refine ⟨?_, xs, hxs, ?_⟩
    · intro p hp hle hd
      rcases (Nat.Prime.dvd_mul hp).1 hd with h | h
      · have := (Nat.prime_dvd_prime_iff_eq hp hP).1 h; omega
      · have := (Nat.prime_dvd_prime_iff_eq hp hQ).1 h; omega
    · intro i hi
      have hi' : i < xs.length := by omega
      have e1 : xs.getD i 0 = xs[i] := by simp [List.getD, hi']
      have e2 : (xs.map y).getD i 0 = y xs[i] := by simp [List.getD, hi']
      rw [e1, e2, hy2, ← pow_mul]
      have hx := (hunits xs[i] (List.getElem_mem hi')).2.2.2
      have hfer := pow_eq_one_pq hP hQ hne hx (Dvd.intro _ rfl : P - 1 ∣ (P - 1) * (Q - 1)) (Dvd.intro_left _ rfl)
      have hmod : M * (P * Q) ≡ 1 [MOD (P - 1) * (Q - 1)] := by
        rw [← Int.natCast_modEq_iff, mul_comm M (P * Q)]
        exact_mod_cast hM1
      have h1lt : 1 < (P - 1) * (Q - 1) := by
        have : 1000 * 1 ≤ (P - 1) * (Q - 1) := Nat.mul_le_mul (by omega) (by omega)
        omega
      have h4 := Nat.div_add_mod (M * (P * Q)) ((P - 1) * (Q - 1))
      rw [hmod, Nat.mod_eq_of_lt h1lt] at h4
      rw [← h4, pow_add, pow_mul, hfer, one_pow, one_mul, pow_one]

/-- Non-vacuity of completeness: P = 1009, Q = 1013 and a hash whose first challenges are all accepted. -/
example : ∃ xs, GenerateXs (fun _ => [0, 1, 1]) 13 7 (mkKey 1009 1013).N 3 4 13 = some xs :=
  ⟨List.replicate 13 257, by decide +kernel⟩

example : Nat.gcd (1009 * 1013) ((1009 - 1) * (1013 - 1)) = 1 ∧ Nat.Prime 1009 ∧ Nat.Prime 1013 := by
  refine ⟨by decide +kernel, by norm_num, by norm_num⟩

end Tss.Paillier
