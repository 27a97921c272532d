import Verif.Lemmas.RangeProofs
/-
C35–C39: the encryption-range proof (crypto/encproof) and the log* proof (crypto/logproof).
-/
namespace Tss.RangeProofs
open Tss Text Alice

/-! ### Specification of the relations, in residue rings -/

/-- The verification relations of the encryption-range proof for first message `(S, A, C)`, challenge `e` and
responses `(z1, z2, z3)`; `(N, s, t)` are the verifier's ring-Pedersen parameters, `n` the prover's Paillier modulus,
`K` the ciphertext.  Powers with negative exponents are powers of the inverse. -/
structure EncRel (q bound : ℤ) (n N : ℕ) (s t K : ℤ) (S A C : ℕ) (e z1 : ℤ) (z2 : ℕ) (z3 : ℤ) : Prop where
  n_pos : 0 < n
  N_pos : 0 < N
  S_lt : S < N
  S_unit : Nat.gcd S N = 1
  C_lt : C < N
  C_unit : Nat.gcd C N = 1
  z2_lt : z2 < n
  A_lt : A < n * n
  A_unit : Nat.gcd A n = 1
  e_lower : -q ≤ e
  e_upper : e ≤ q
  z1_bound : |z1| ≤ bound
  K_ok : 0 ≤ e ∨ Int.gcd K n = 1
  s_ok : 0 ≤ z1 ∨ Int.gcd s N = 1
  t_ok : 0 ≤ z3 ∨ Int.gcd t N = 1
  paillier : pw (1 + (n : ZMod (n * n))) z1 * (z2 : ZMod (n * n)) ^ n = (A : ZMod (n * n)) * pw (K : ZMod (n * n)) e
  pedersen : pw (s : ZMod N) z1 * pw (t : ZMod N) z3 = (C : ZMod N) * pw (S : ZMod N) e

/-- The verification relations of the log* proof in an abelian group: as above, with first message
`(S, A, D, Y)`, ciphertext `C`, group statement `X` to base `G`, curve order `q`. -/
structure LogRel {Gp : Type} [AddCommGroup Gp] (q bound : ℤ) (n N : ℕ) (s t C : ℤ) (X G : Gp)
    (S A D : ℕ) (Y : Gp) (e z1 : ℤ) (z2 : ℕ) (z3 : ℤ) : Prop where
  n_pos : 0 < n
  N_pos : 0 < N
  S_lt : S < N
  S_unit : Nat.gcd S N = 1
  A_lt : A < n * n
  A_unit : Nat.gcd A n = 1
  D_lt : D < N
  D_unit : Nat.gcd D N = 1
  z2_lt : z2 < n
  z2_unit : Nat.gcd z2 n = 1
  e_lower : -q ≤ e
  e_upper : e ≤ q
  z1_bound : |z1| ≤ bound
  C_ok : 0 ≤ e ∨ Int.gcd C n = 1
  s_ok : 0 ≤ z1 ∨ Int.gcd s N = 1
  t_ok : 0 ≤ z3 ∨ Int.gcd t N = 1
  point : (z1 % q) • G = (e % q) • X + Y
  paillier : pw (1 + (n : ZMod (n * n))) z1 * (z2 : ZMod (n * n)) ^ n = (A : ZMod (n * n)) * pw (C : ZMod (n * n)) e
  pedersen : pw (s : ZMod N) z1 * pw (t : ZMod N) z3 = (D : ZMod N) * pw (S : ZMod N) e

theorem InRange_nat {a : ℕ} {c : ℤ} : InRange (a : ℤ) 0 c = .ok () ↔ (a : ℤ) < c := by
  rw [InRange_ok]; constructor
  · exact fun h => h.2
  · intro h; exact ⟨by positivity, h⟩

theorem relPrime_nat {a b : ℕ} : IsRelativePrime (a : ℤ) (b : ℤ) = true ↔ Nat.gcd a b = 1 := by
  rw [IsRelativePrime_iff, Int.gcd_natCast_natCast]

/-- C36: the verifier of the encryption-range proof accepts exactly when both responses are decimal integers and
all relations hold, for the challenge recomputed from the transcript. -/
theorem C36_enc_accept_iff (Hb : Bytes → Bytes) (cfg : ProofConfig) (ssid : Bytes) (K : ℤ) (n N : ℕ) (s t : ℤ)
    (m : EncMsg) :
    m.verify Hb cfg ssid K n ((N : ℤ), s, t) = .ok () ↔
      ∃ z1 z3, parseBig 10 m.z1 = some z1 ∧ parseBig 10 m.z3 = some z3 ∧
        EncRel cfg.curveN (2 * 2 ^ cfg.lAddEpsilon) n N s t K (beNat m.S) (beNat m.A) (beNat m.C)
          (challenge Hb cfg.curveN m.salt
            (encParts cfg ssid K n ((N : ℤ), s, t) (beNat m.S) (beNat m.A) (beNat m.C)))
          z1 (beNat m.z2) z3 := by
  unfold EncMsg.verify
  simp only [Res.bind_ok_iff, unit_ex, lift_ok, check_ok, deref_ok, InRange_nat, relPrime_nat, Int.natCast_natAbs,
    decide_eq_true_iff]
  set e := challenge Hb cfg.curveN m.salt
            (encParts cfg ssid K n ((N : ℤ), s, t) (beNat m.S) (beNat m.A) (beNat m.C)) with he
  constructor
  · rintro ⟨hS, hSu, hC, hCu, hz2, hA, hAu, hR, z1, hz1, hb, AK, hAK, cmp, hcmp, heq, CS, hCS, z3, hz3, cmp', hcmp',
      heq'⟩
    have hn : 0 < n := by omega
    have hN : 0 < N := by omega
    have : NeZero n := ⟨by omega⟩
    have : NeZero N := ⟨by omega⟩
    have : NeZero (n * n) := ⟨Nat.mul_ne_zero (NeZero.ne n) (NeZero.ne n)⟩
    rw [show (n : ℤ) * (n : ℤ) = ((n * n : ℕ) : ℤ) by push_cast; rfl] at hA hAK
    rw [mulExp_some] at hAK hCS
    rw [enc0_some] at hcmp
    rw [commit_some] at hcmp'
    rw [InRange_ok] at hR
    subst heq
    subst heq'
    refine ⟨z1, z3, hz1, hz3, ?_⟩
    constructor
    · exact hn
    · exact hN
    · omega
    · exact hSu
    · omega
    · exact hCu
    · omega
    · exact_mod_cast hA
    · exact hAu
    · exact hR.1
    · omega
    · exact hb
    · rw [gcd_sq] at hAK; exact hAK.1
    · exact hcmp'.1
    · exact hcmp'.2.1
    · have h1 := hcmp.2.2
      have h2 := hAK.2.2.2
      push_cast at h1 h2
      rw [← h1, h2]
    · have h1 := hcmp'.2.2.2.2
      have h2 := hCS.2.2.2
      push_cast at h1 h2
      rw [← h1, h2]
  · rintro ⟨z1, z3, hz1, hz3, r⟩
    have hn := r.n_pos
    have hN := r.N_pos
    have : NeZero n := ⟨by omega⟩
    have : NeZero N := ⟨by omega⟩
    have : NeZero (n * n) := ⟨Nat.mul_ne_zero (NeZero.ne n) (NeZero.ne n)⟩
    rw [show (n : ℤ) * (n : ℤ) = ((n * n : ℕ) : ℤ) by push_cast; rfl]
    obtain ⟨w1, a1, b1, c1⟩ := exists_residue ((beNat m.A : ZMod (n * n)) * pw (K : ZMod (n * n)) e)
    obtain ⟨w2, a2, b2, c2⟩ := exists_residue ((beNat m.C : ZMod N) * pw (beNat m.S : ZMod N) e)
    refine ⟨by exact_mod_cast r.S_lt, r.S_unit, by exact_mod_cast r.C_lt, r.C_unit, by exact_mod_cast r.z2_lt,
      by exact_mod_cast r.A_lt, r.A_unit, InRange_ok.2 ⟨r.e_lower, by have := r.e_upper; omega⟩, z1, hz1, r.z1_bound,
      w1, ?_, w1, ?_, rfl, w2, ?_, z3, hz3, w2, ?_, rfl⟩
    · rw [mulExp_some, gcd_sq]
      exact ⟨r.K_ok, a1, b1, by rw [c1]; push_cast; rfl⟩
    · rw [enc0_some]
      refine ⟨a1, b1, ?_⟩
      rw [c1, ← r.paillier]; push_cast; rfl
    · rw [mulExp_some]
      refine ⟨?_, a2, b2, by rw [c2]; push_cast; rfl⟩
      right; rw [Int.gcd_natCast_natCast]; exact r.S_unit
    · rw [commit_some]
      refine ⟨r.s_ok, r.t_ok, a2, b2, ?_⟩
      rw [c2, ← r.pedersen]

/-- C36: acceptance is only possible for positive moduli. -/
theorem C36_enc_accept_pos (Hb : Bytes → Bytes) (cfg : ProofConfig) (ssid : Bytes) (K n : ℤ) (ped : Ped) (m : EncMsg)
    (h : m.verify Hb cfg ssid K n ped = .ok ()) : 0 < n ∧ 0 < ped.1 := by
  unfold EncMsg.verify at h
  simp only [Res.bind_ok_iff, unit_ex, lift_ok, check_ok, deref_ok, InRange_nat] at h
  obtain ⟨hS, -, -, -, hz, -⟩ := h
  exact ⟨by omega, by omega⟩

/-- Acceptance of the encryption-range proof makes every value that is exponentiated a unit, given that the
ciphertext is one. -/
theorem EncRel.z2_unit {q bound : ℤ} {n N : ℕ} {s t K : ℤ} {S A C : ℕ} {e z1 : ℤ} {z2 : ℕ} {z3 : ℤ}
    (r : EncRel q bound n N s t K S A C e z1 z2 z3) (hK : Int.gcd K n = 1) : Int.gcd z2 n = 1 := by
  have hn := r.n_pos
  have : NeZero n := ⟨by omega⟩
  have : NeZero (n * n) := ⟨Nat.mul_ne_zero (NeZero.ne n) (NeZero.ne n)⟩
  obtain ⟨k, hk⟩ := exists_unit (gcd_sq.2 hK)
  obtain ⟨a, ha⟩ := exists_unit (n := n * n) (x := (A : ℤ)) (gcd_sq.2 (by rw [Int.gcd_natCast_natCast]; exact r.A_unit))
  obtain ⟨g, hg⟩ := exists_unit (gcd_one_add n)
  have h := r.paillier
  have hg' : (1 + (n : ZMod (n * n))) = (g : ZMod (n * n)) := by rw [hg]; push_cast; rfl
  have ha' : (A : ZMod (n * n)) = (a : ZMod (n * n)) := by rw [ha]; push_cast; rfl
  rw [hg', ha', ← hk, pw_unit, pw_unit] at h
  rw [← gcd_sq]
  apply gcd_of_unit
  have h2 : IsUnit ((z2 : ZMod (n * n)) ^ n) := by
    have h3 : (z2 : ZMod (n * n)) ^ n = ((g ^ z1)⁻¹ * (a * k ^ e) : (ZMod (n * n))ˣ) := by
      rw [Units.val_mul, Units.val_mul, ← h, ← mul_assoc, ← Units.val_mul]
      simp
    rw [h3]; exact Units.isUnit _
  have := isUnit_of_mul_isUnit_left (y := (z2 : ZMod (n * n)) ^ (n - 1))
    (x := (z2 : ZMod (n * n))) (by rw [← pow_succ', Nat.sub_add_cancel hn]; exact h2)
  exact_mod_cast this

/-- C36: special soundness.  Two accepting transcripts with the same first message for the same ciphertext
and different challenges: the difference of the responses opens the powers of the ciphertext and of the
commitment, within twice the range bound; when the difference of the challenges is prime to `n` (it is below
every prime factor in practice) the ciphertext itself is an encryption of `a·(z1 - z1')` where `a` inverts the
difference modulo `n`. -/
theorem C36_enc_special_soundness {q bound : ℤ} {n N : ℕ} {s t K : ℤ} {S A C : ℕ} {e e' z1 z1' : ℤ} {z2 z2' : ℕ}
    {z3 z3' : ℤ} (r : EncRel q bound n N s t K S A C e z1 z2 z3) (r' : EncRel q bound n N s t K S A C e' z1' z2' z3')
    (hK : Int.gcd K n = 1) (hs : Int.gcd s N = 1) (ht : Int.gcd t N = 1) :
    |z1 - z1'| ≤ 2 * bound ∧ |e - e'| ≤ 2 * q ∧
    (∃ (w k g : (ZMod (n * n))ˣ), (k : ZMod (n * n)) = K ∧ (g : ZMod (n * n)) = 1 + n ∧ (w : ZMod (n * n)) * z2' = z2 ∧
      g ^ (z1 - z1') * w ^ n = k ^ (e - e') ∧
      ∀ a b : ℤ, a * (e - e') + b * n = 1 → k = g ^ (a * (z1 - z1')) * (w ^ a * k ^ b) ^ n) ∧
    (∃ (us ut uS : (ZMod N)ˣ), (us : ZMod N) = s ∧ (ut : ZMod N) = t ∧ (uS : ZMod N) = S ∧
      us ^ (z1 - z1') * ut ^ (z3 - z3') = uS ^ (e - e')) := by
  have hn := r.n_pos
  have hN := r.N_pos
  have : NeZero n := ⟨by omega⟩
  have : NeZero N := ⟨by omega⟩
  have : NeZero (n * n) := ⟨Nat.mul_ne_zero (NeZero.ne n) (NeZero.ne n)⟩
  refine ⟨?_, ?_, ?_, ?_⟩
  · have h1 := r.z1_bound
    have h2 := r'.z1_bound
    rw [abs_le] at *; constructor <;> linarith [h1.1, h1.2, h2.1, h2.2]
  · have := r.e_lower; have := r.e_upper; have := r'.e_lower; have := r'.e_upper
    rw [abs_le]; constructor <;> linarith
  · obtain ⟨k, hk⟩ := exists_unit (gcd_sq.2 hK)
    obtain ⟨a, ha⟩ := exists_unit (n := n * n) (x := (A : ℤ))
      (gcd_sq.2 (by rw [Int.gcd_natCast_natCast]; exact r.A_unit))
    obtain ⟨g, hg⟩ := exists_unit (gcd_one_add n)
    obtain ⟨u, hu⟩ := exists_unit (n := n * n) (gcd_sq.2 (r.z2_unit hK))
    obtain ⟨u', hu'⟩ := exists_unit (n := n * n) (gcd_sq.2 (r'.z2_unit hK))
    have hg' : (1 + (n : ZMod (n * n))) = (g : ZMod (n * n)) := by rw [hg]; push_cast; rfl
    have ha' : (A : ZMod (n * n)) = (a : ZMod (n * n)) := by rw [ha]; push_cast; rfl
    have hu2 : (z2 : ZMod (n * n)) = (u : ZMod (n * n)) := by rw [hu]; push_cast; rfl
    have hu2' : (z2' : ZMod (n * n)) = (u' : ZMod (n * n)) := by rw [hu']; push_cast; rfl
    have h := r.paillier
    have h' := r'.paillier
    rw [hg', ha', hu2, ← hk, pw_unit, pw_unit, ← Units.val_pow_eq_pow_val, ← Units.val_mul, ← Units.val_mul,
      Units.val_inj] at h
    rw [hg', ha', hu2', ← hk, pw_unit, pw_unit, ← Units.val_pow_eq_pow_val, ← Units.val_mul, ← Units.val_mul,
      Units.val_inj] at h'
    have key : g ^ (z1 - z1') * (u * u'⁻¹) ^ n = k ^ (e - e') := by
      rw [zpow_sub, zpow_sub, mul_pow, inv_pow]
      have : k ^ e * (k ^ e')⁻¹ = (g ^ z1 * u ^ n) * (g ^ z1' * u' ^ n)⁻¹ := by
        rw [h, h', mul_inv]
        rw [mul_mul_mul_comm, mul_inv_cancel, one_mul]
      rw [this, mul_inv, mul_mul_mul_comm]
    have hw : ((u * u'⁻¹ : (ZMod (n * n))ˣ) : ZMod (n * n)) * z2' = z2 := by
      rw [hu2, hu2', ← Units.val_mul, inv_mul_cancel_right]
    generalize u * u'⁻¹ = w at key hw
    refine ⟨w, k, g, hk, hg'.symm, hw, key, ?_⟩
    intro x y hxy
    calc k = k ^ (x * (e - e') + y * n) := by rw [hxy, zpow_one]
      _ = (k ^ (e - e')) ^ x * (k ^ y) ^ n := by
          rw [zpow_add, mul_comm x, zpow_mul, zpow_mul k y, zpow_natCast]
      _ = _ := by
          rw [← key, mul_zpow, ← zpow_mul, mul_comm (z1 - z1') x, mul_pow, mul_assoc]
          congr 2
          rw [← zpow_natCast w n, ← zpow_natCast (w ^ x) n, ← zpow_mul, ← zpow_mul, mul_comm (n : ℤ) x]
  · obtain ⟨us, hus⟩ := exists_unit hs
    obtain ⟨ut, hut⟩ := exists_unit ht
    obtain ⟨uS, huS⟩ := exists_unit (n := N) (x := (S : ℤ)) (by rw [Int.gcd_natCast_natCast]; exact r.S_unit)
    obtain ⟨uC, huC⟩ := exists_unit (n := N) (x := (C : ℤ)) (by rw [Int.gcd_natCast_natCast]; exact r.C_unit)
    have h := r.pedersen
    have h' := r'.pedersen
    have hS' : (S : ZMod N) = (uS : ZMod N) := by rw [huS]; push_cast; rfl
    have hC' : (C : ZMod N) = (uC : ZMod N) := by rw [huC]; push_cast; rfl
    rw [hS', hC', ← hus, ← hut, pw_unit, pw_unit, pw_unit, ← Units.val_mul, ← Units.val_mul, Units.val_inj] at h
    rw [hS', hC', ← hus, ← hut, pw_unit, pw_unit, pw_unit, ← Units.val_mul, ← Units.val_mul, Units.val_inj] at h'
    refine ⟨us, ut, uS, hus, hut, hS'.symm, ?_⟩
    rw [zpow_sub, zpow_sub, zpow_sub]
    have : uS ^ e * (uS ^ e')⁻¹ = (us ^ z1 * ut ^ z3) * (us ^ z1' * ut ^ z3')⁻¹ := by
      rw [h, h', mul_inv, mul_mul_mul_comm, mul_inv_cancel, one_mul]
    rw [this, mul_inv, mul_mul_mul_comm]

theorem beNat_intBytes_nonneg {z : ℤ} (h : 0 ≤ z) : ((beNat (intBytes z) : ℕ) : ℤ) = z := by
  rw [beNat_intBytes]; omega

theorem pw_isUnit {m : ℕ} [NeZero m] {x : ℤ} (h : Int.gcd x m = 1) (y : ℤ) : IsUnit (pw (x : ZMod m) y) := by
  obtain ⟨u, hu⟩ := exists_unit h
  rw [← hu, pw_unit]; exact Units.isUnit _

theorem pw_add {m : ℕ} {x : ℤ} (h : Int.gcd x m = 1) (a b : ℤ) :
    pw (x : ZMod m) (a + b) = pw (x : ZMod m) a * pw (x : ZMod m) b := by
  obtain ⟨u, hu⟩ := exists_unit h
  rw [← hu, pw_unit, pw_unit, pw_unit, zpow_add, Units.val_mul]

theorem pw_mul {m : ℕ} {x : ℤ} (h : Int.gcd x m = 1) (a b : ℤ) :
    pw (x : ZMod m) (a * b) = pw (pw (x : ZMod m) a) b := by
  obtain ⟨u, hu⟩ := exists_unit h
  rw [← hu, pw_unit, pw_unit, pw_unit, zpow_mul]

theorem pw_mul_base {m : ℕ} {x y : ZMod m} (hx : IsUnit x) (hy : IsUnit y) (a : ℤ) :
    pw (x * y) a = pw x a * pw y a := by
  obtain ⟨u, rfl⟩ := hx
  obtain ⟨v, rfl⟩ := hy
  rw [← Units.val_mul, pw_unit, pw_unit, pw_unit, mul_zpow, Units.val_mul]

/-- The Pedersen relation of an honest response. -/
theorem honest_pedersen {N : ℕ} [NeZero N] {s t : ℤ} (hs : Int.gcd s N = 1) (ht : Int.gcd t N = 1) (k mu al ga e : ℤ) :
    pw (s : ZMod N) (e * k + al) * pw (t : ZMod N) (e * mu + ga) =
      (pw (s : ZMod N) al * pw (t : ZMod N) ga) * pw (pw (s : ZMod N) k * pw (t : ZMod N) mu) e := by
  obtain ⟨u, hu⟩ := exists_unit hs
  obtain ⟨v, hv⟩ := exists_unit ht
  rw [← hu, ← hv]
  simp only [pw_unit, ← Units.val_mul]
  congr 1
  rw [zpow_add, zpow_add, mul_zpow, mul_comm e k, mul_comm e mu, zpow_mul, zpow_mul]
  rw [mul_mul_mul_comm, mul_comm]

/-- The Paillier relation of an honest response. -/
theorem honest_paillier {n : ℕ} [NeZero n] {r rho : ℤ} (hr : Int.gcd r n = 1) (hrho : Int.gcd rho n = 1)
    (k al e : ℤ) {z2 : ℤ} (hz2 : (z2 : ZMod n) = (r : ZMod n) * pw (rho : ZMod n) e) :
    pw (1 + (n : ZMod (n * n))) (e * k + al) * (z2 : ZMod (n * n)) ^ n =
      (pw (1 + (n : ZMod (n * n))) al * (r : ZMod (n * n)) ^ n) *
        pw (pw (1 + (n : ZMod (n * n))) k * (rho : ZMod (n * n)) ^ n) e := by
  have : NeZero (n * n) := ⟨Nat.mul_ne_zero (NeZero.ne n) (NeZero.ne n)⟩
  obtain ⟨g, hg⟩ := exists_unit (gcd_one_add n)
  have hg' : (1 + (n : ZMod (n * n))) = (g : ZMod (n * n)) := by rw [hg]; push_cast; rfl
  obtain ⟨ur, hur⟩ := exists_unit (gcd_sq.2 hr)
  obtain ⟨uo, huo⟩ := exists_unit (gcd_sq.2 hrho)
  -- z2^n equals (r·rho^e)^n modulo n²
  have h1 : (z2 : ZMod (n * n)) ^ n = ((ur * uo ^ e) ^ n : (ZMod (n * n))ˣ) := by
    set y : ℤ := (((ur * uo ^ e : (ZMod (n * n))ˣ) : ZMod (n * n)).val : ℤ) with hy
    have hyc : (y : ZMod (n * n)) = ((ur * uo ^ e : (ZMod (n * n))ˣ) : ZMod (n * n)) := by
      rw [hy]; simp
    have hn' : (z2 : ZMod n) = (y : ZMod n) := by
      have f := ZMod.castHom (Dvd.intro n rfl : n ∣ n * n) (ZMod n)
      have e1 : (y : ZMod n) = ZMod.castHom (Dvd.intro n rfl : n ∣ n * n) (ZMod n) (y : ZMod (n * n)) := by simp
      rw [e1, hyc, Units.val_mul, map_mul]
      have e2 : ZMod.castHom (Dvd.intro n rfl : n ∣ n * n) (ZMod n) (ur : ZMod (n * n)) = (r : ZMod n) := by
        rw [hur]; simp
      have e3 : ZMod.castHom (Dvd.intro n rfl : n ∣ n * n) (ZMod n) ((uo ^ e : (ZMod (n * n))ˣ) : ZMod (n * n)) =
          pw (rho : ZMod n) e := by
        obtain ⟨vo, hvo⟩ := exists_unit hrho
        have : Units.map (ZMod.castHom (Dvd.intro n rfl : n ∣ n * n) (ZMod n)).toMonoidHom uo = vo := by
          ext; simp [huo, hvo]
        rw [← hvo, pw_unit, ← this, ← map_zpow]
        rfl
      rw [e2, e3, hz2]
    rw [pow_eq_of_modEq hn', hyc, Units.val_pow_eq_pow_val]
  rw [h1, hg', ← hur, ← huo]
  simp only [pw_unit, ← Units.val_pow_eq_pow_val, ← Units.val_mul]
  congr 1
  rw [zpow_add, mul_zpow, mul_pow, mul_comm e k, zpow_mul]
  have h4 : (uo ^ e) ^ n = (uo ^ n) ^ e := by
    rw [← zpow_natCast, ← zpow_mul, mul_comm e (n : ℤ), zpow_mul, zpow_natCast]
  rw [h4]
  generalize (g ^ k) ^ e = x1
  generalize (uo ^ n) ^ e = x2
  generalize ur ^ n = x3
  ac_rfl

/-- C35: completeness.  For an honest ciphertext and unit randomness, proof creation either reports that no
challenge was found, or yields a message which the verifier accepts exactly when the masked plaintext
`e·k + α` is within the bound, and otherwise rejects for that reason and no other. -/
theorem C35_enc_complete (Hb : Bytes → Bytes) (cfg : ProofConfig) (ssid : Bytes) (K k rho : ℤ) (n N : ℕ) (s t : ℤ)
    (d : Draws) (hn : 0 < n) (hN : 0 < N) (hs : Int.gcd s N = 1) (ht : Int.gcd t N = 1)
    (hrho : Int.gcd rho n = 1) (hr : Int.gcd d.r n = 1)
    (hK : (K : ZMod (n * n)) = pw (1 + (n : ZMod (n * n))) k * (rho : ZMod (n * n)) ^ n) :
    (NewEncryptRangeMessage Hb cfg ssid K n k rho ((N : ℤ), s, t) d = .err .exceedMaxRetry) ∨
    ∃ m e, NewEncryptRangeMessage Hb cfg ssid K n k rho ((N : ℤ), s, t) d = .ok m ∧
      -cfg.curveN ≤ e ∧ e ≤ cfg.curveN ∧ parseBig 10 m.z1 = some (e * k + d.alpha) ∧
      m.verify Hb cfg ssid K n ((N : ℤ), s, t) =
        if |e * k + d.alpha| ≤ 2 * 2 ^ cfg.lAddEpsilon then .ok () else .err .z1Range := by
  have : NeZero n := ⟨by omega⟩
  have : NeZero N := ⟨by omega⟩
  have : NeZero (n * n) := ⟨Nat.mul_ne_zero (NeZero.ne n) (NeZero.ne n)⟩
  obtain ⟨S, hS0, hS1, hS⟩ := exists_residue (pw (s : ZMod N) k * pw (t : ZMod N) d.mu)
  obtain ⟨A, hA0, hA1, hA⟩ := exists_residue (pw (1 + (n : ZMod (n * n))) d.alpha * (d.r : ZMod (n * n)) ^ n)
  obtain ⟨C, hC0, hC1, hC⟩ := exists_residue (pw (s : ZMod N) d.alpha * pw (t : ZMod N) d.gamma)
  have eS : commit ((N : ℤ), s, t) k d.mu = some S := by
    rw [commit_some]; exact ⟨.inr hs, .inr ht, hS0, hS1, hS⟩
  have eA : enc0 (n : ℤ) d.alpha d.r = some A := by
    rw [enc0_some]; exact ⟨hA0, hA1, hA⟩
  have eC : commit ((N : ℤ), s, t) d.alpha d.gamma = some C := by
    rw [commit_some]; exact ⟨.inr hs, .inr ht, hC0, hC1, hC⟩
  unfold NewEncryptRangeMessage
  rw [if_neg (by simp; omega), eS, eA, eC]
  simp only
  cases hE : GetE Hb cfg.curveN (encParts cfg ssid K n ((N : ℤ), s, t) S A C) d.salts with
  | panic => exact absurd hE (getELoop_not_panic 100)
  | err er => left; rw [getELoop_err 100 er hE]
  | ok es =>
    obtain ⟨e, salt⟩ := es
    obtain ⟨he, hel, heu⟩ := GetE_spec hE
    right
    obtain ⟨z2, hz0, hz1, hz⟩ := exists_residue ((d.r : ZMod n) * pw (rho : ZMod n) e)
    have ez2 : mulExp d.r rho e (n : ℤ) = some z2 := by
      rw [mulExp_some]; exact ⟨.inr hrho, hz0, hz1, hz⟩
    simp only [ez2]
    refine ⟨_, e, rfl, hel, heu, parseBig_bigString _, ?_⟩
    have uS : IsUnit (S : ZMod N) := by rw [hS]; exact (pw_isUnit hs _).mul (pw_isUnit ht _)
    have uC : IsUnit (C : ZMod N) := by rw [hC]; exact (pw_isUnit hs _).mul (pw_isUnit ht _)
    have uA : IsUnit (A : ZMod (n * n)) := by
      rw [hA]
      have h1 := pw_isUnit (gcd_one_add n) d.alpha
      push_cast at h1
      obtain ⟨ur, hur⟩ := exists_unit (gcd_sq.2 hr)
      refine h1.mul (IsUnit.pow n ?_)
      rw [← hur]; exact Units.isUnit _
    have uK : Int.gcd K n = 1 := by
      rw [← gcd_sq]
      apply gcd_of_unit
      rw [hK]
      have h1 := pw_isUnit (gcd_one_add n) k
      push_cast at h1
      obtain ⟨ur, hur⟩ := exists_unit (gcd_sq.2 hrho)
      refine h1.mul (IsUnit.pow n ?_)
      rw [← hur]; exact Units.isUnit _
    have gS := gcd_of_unit uS
    have gC := gcd_of_unit uC
    have gA := gcd_sq.1 (gcd_of_unit uA)
    by_cases hb : |e * k + d.alpha| ≤ 2 * 2 ^ cfg.lAddEpsilon
    · rw [if_pos hb, C36_enc_accept_iff]
      refine ⟨_, _, parseBig_bigString _, parseBig_bigString _, ?_⟩
      simp only [beNat_intBytes_nonneg hS0, beNat_intBytes_nonneg hA0, beNat_intBytes_nonneg hC0]
      rw [← he]
      constructor
      · exact hn
      · exact hN
      · have := beNat_intBytes_nonneg hS0; omega
      · rw [← Int.gcd_natCast_natCast, beNat_intBytes_nonneg hS0]; exact gS
      · have := beNat_intBytes_nonneg hC0; omega
      · rw [← Int.gcd_natCast_natCast, beNat_intBytes_nonneg hC0]; exact gC
      · have := beNat_intBytes_nonneg hz0; omega
      · have := beNat_intBytes_nonneg hA0; omega
      · rw [← Int.gcd_natCast_natCast, beNat_intBytes_nonneg hA0]; exact gA
      · exact hel
      · exact heu
      · exact hb
      · exact .inr uK
      · exact .inr hs
      · exact .inr ht
      · have h1 : ((beNat (intBytes z2) : ℕ) : ZMod (n * n)) = ((z2 : ℤ) : ZMod (n * n)) := by
          rw [← beNat_intBytes_nonneg hz0]; push_cast; simp
        have h2 : ((beNat (intBytes A) : ℕ) : ZMod (n * n)) = ((A : ℤ) : ZMod (n * n)) := by
          rw [← beNat_intBytes_nonneg hA0]; push_cast; simp
        rw [h1, h2, hA, hK]
        exact honest_paillier hr hrho k d.alpha e hz
      · have h1 : ((beNat (intBytes S) : ℕ) : ZMod N) = ((S : ℤ) : ZMod N) := by
          rw [← beNat_intBytes_nonneg hS0]; push_cast; simp
        have h2 : ((beNat (intBytes C) : ℕ) : ZMod N) = ((C : ℤ) : ZMod N) := by
          rw [← beNat_intBytes_nonneg hC0]; push_cast; simp
        rw [h1, h2, hC, hS]
        exact honest_pedersen hs ht k d.mu d.alpha d.gamma e
    · rw [if_neg hb]
      unfold EncMsg.verify
      simp only [beNat_intBytes_nonneg hS0, beNat_intBytes_nonneg hA0, beNat_intBytes_nonneg hC0,
        beNat_intBytes_nonneg hz0, parseBig_bigString, ← he]
      rw [InRange_ok.2 ⟨hS0, hS1⟩, IsRelativePrime_iff.2 gS, InRange_ok.2 ⟨hC0, hC1⟩, IsRelativePrime_iff.2 gC,
        InRange_ok.2 ⟨hz0, hz1⟩, InRange_ok.2 ⟨hA0, by push_cast at hA1; exact hA1⟩, IsRelativePrime_iff.2 gA,
        InRange_ok.2 ⟨hel, by omega⟩]
      simp only [lift, check, if_true, Res.ok_bind, deref, Int.natCast_natAbs]
      rw [if_neg (by simpa using hb)]
      rfl

/-- C35: when the mask leaves room for `q·k`, an honest proof is always accepted. -/
theorem C35_enc_accepted_in_range (Hb : Bytes → Bytes) (cfg : ProofConfig) (ssid : Bytes) (K k rho : ℤ) (n N : ℕ)
    (s t : ℤ) (d : Draws) (hn : 0 < n) (hN : 0 < N) (hs : Int.gcd s N = 1) (ht : Int.gcd t N = 1)
    (hrho : Int.gcd rho n = 1) (hr : Int.gcd d.r n = 1)
    (hK : (K : ZMod (n * n)) = pw (1 + (n : ZMod (n * n))) k * (rho : ZMod (n * n)) ^ n)
    (ha : |d.alpha| + cfg.curveN * |k| ≤ 2 * 2 ^ cfg.lAddEpsilon) (m : EncMsg)
    (hm : NewEncryptRangeMessage Hb cfg ssid K n k rho ((N : ℤ), s, t) d = .ok m) :
    m.verify Hb cfg ssid K n ((N : ℤ), s, t) = .ok () := by
  rcases C35_enc_complete Hb cfg ssid K k rho n N s t d hn hN hs ht hrho hr hK with h | ⟨m', e, h, hl, hu, -, hv⟩
  · rw [hm] at h; simp at h
  · rw [hm] at h
    cases h
    rw [hv, if_pos]
    have h1 : |e * k| ≤ cfg.curveN * |k| := by
      rw [abs_mul]
      exact mul_le_mul_of_nonneg_right (abs_le.2 ⟨hl, hu⟩) (abs_nonneg k)
    calc |e * k + d.alpha| ≤ |e * k| + |d.alpha| := abs_add_le _ _
      _ ≤ _ := by linarith

/-- C35: the mask may be drawn as large as the bound plus one (C65), and then an honest proof whose challenge
has the sign of the plaintext is rejected. -/
theorem C35_enc_honest_can_fail (Hb : Bytes → Bytes) (cfg : ProofConfig) (ssid : Bytes) (K k rho : ℤ) (n N : ℕ)
    (s t : ℤ) (d : Draws) (hn : 0 < n) (hN : 0 < N) (hs : Int.gcd s N = 1) (ht : Int.gcd t N = 1)
    (hrho : Int.gcd rho n = 1) (hr : Int.gcd d.r n = 1)
    (hK : (K : ZMod (n * n)) = pw (1 + (n : ZMod (n * n))) k * (rho : ZMod (n * n)) ^ n)
    (ha : d.alpha = 2 * 2 ^ cfg.lAddEpsilon + 1) (m : EncMsg) (z1 : ℤ)
    (hm : NewEncryptRangeMessage Hb cfg ssid K n k rho ((N : ℤ), s, t) d = .ok m)
    (hz : parseBig 10 m.z1 = some z1) (hpos : d.alpha ≤ z1) :
    m.verify Hb cfg ssid K n ((N : ℤ), s, t) = .err .z1Range := by
  rcases C35_enc_complete Hb cfg ssid K k rho n N s t d hn hN hs ht hrho hr hK with h | ⟨m', e, h, hl, hu, hz', hv⟩
  · rw [hm] at h; simp at h
  · rw [hm] at h
    cases h
    rw [hz] at hz'
    cases hz'
    rw [hv, if_neg]
    have := le_abs_self (e * k + d.alpha)
    omega

/-! ### log* proofs -/

/-- C38: the log* verifier accepts exactly when both responses are decimal integers, the commitment point is
on the curve, and all relations hold for the challenge recomputed from the transcript. -/
theorem C38_log_accept_iff {cv : Curve} {Gp : Type} [AddCommGroup Gp] (L : Lawful cv Gp) (Hb : Bytes → Bytes)
    (cfg : ProofConfig) (hq : cfg.curveN = cv.N) (ssid : Bytes) (C : ℤ) (n N : ℕ) (s t : ℤ) (X G : ECPoint)
    (hX : cv.On X) (hG : cv.On G) (m : LogMsg) :
    m.verify Hb cv cfg ssid C n ((N : ℤ), s, t) X G = .ok () ↔
      ∃ z1 z3, parseBig 10 m.z1 = some z1 ∧ parseBig 10 m.z3 = some z3 ∧
        cv.On ⟨beNat m.Yx, beNat m.Yy⟩ ∧
        LogRel cfg.curveN (2 * 2 ^ cfg.lAddEpsilon) n N s t C (L.val X) (L.val G) (beNat m.S) (beNat m.A) (beNat m.D)
          (L.val ⟨beNat m.Yx, beNat m.Yy⟩)
          (challenge Hb cfg.curveN m.salt
            (logParts cfg ssid n ((N : ℤ), s, t) C (beNat m.S) (beNat m.A) (beNat m.D) G X ⟨beNat m.Yx, beNat m.Yy⟩))
          z1 (beNat m.z2) z3 := by
  unfold LogMsg.verify
  simp only [Res.bind_ok_iff, unit_ex, lift_ok, check_ok, deref_ok, derefP_ok, Res.orErr_ok, InRange_nat, relPrime_nat,
    Int.natCast_natAbs, decide_eq_true_iff, Bool.and_eq_true]
  set e := challenge Hb cfg.curveN m.salt
    (logParts cfg ssid n ((N : ℤ), s, t) C (beNat m.S) (beNat m.A) (beNat m.D) G X ⟨beNat m.Yx, beNat m.Yy⟩) with he
  constructor
  · rintro ⟨hS, hSu, hA, hAu, hD, hDu, hz2, hz2u, Y, hY, hR, z1, hz1, hb, eX, heX, YX, hYX, gz, hgz, ⟨hpx, hpy⟩,
      AK, hAK, cmp, hcmp, heq, z3, hz3, cmp', hcmp', DS, hDS, heq'⟩
    have hYo : cv.On ⟨beNat m.Yx, beNat m.Yy⟩ ∧ Y = ⟨beNat m.Yx, beNat m.Yy⟩ := by
      unfold ECPoint.new at hY
      split at hY
      · next ho => exact ⟨ho, by simpa using hY.symm⟩
      · simp at hY
    obtain ⟨hYo, rfl⟩ := hYo
    have hn : 0 < n := by omega
    have hN : 0 < N := by omega
    have : NeZero n := ⟨by omega⟩
    have : NeZero N := ⟨by omega⟩
    have : NeZero (n * n) := ⟨Nat.mul_ne_zero (NeZero.ne n) (NeZero.ne n)⟩
    rw [← he] at hR heX hAK hDS
    rw [show (n : ℤ) * (n : ℤ) = ((n * n : ℕ) : ℤ) by push_cast; rfl] at hA hAK
    rw [mulExp_some] at hAK hDS
    rw [enc0_some] at hcmp
    rw [commit_some] at hcmp'
    rw [InRange_ok] at hR
    subst heq
    subst heq'
    rw [L.scalarMult_pt hX] at heX
    rw [L.scalarMult_pt hG] at hgz
    cases heX
    cases hgz
    rw [L.add_pt (L.on_pt _) hYo, L.val_pt] at hYX
    cases hYX
    have hpt : L.pt ((z1 % cv.N) • L.val G) = L.pt ((e % cv.N) • L.val X + L.val ⟨beNat m.Yx, beNat m.Yy⟩) := by
      cases hA' : L.pt ((z1 % cv.N) • L.val G)
      cases hB' : L.pt ((e % cv.N) • L.val X + L.val ⟨beNat m.Yx, beNat m.Yy⟩)
      rw [hA', hB'] at hpx hpy
      simp only at hpx hpy
      rw [hpx, hpy]
    rw [L.pt_inj] at hpt
    refine ⟨z1, z3, hz1, hz3, hYo, ?_⟩
    constructor
    · exact hn
    · exact hN
    · omega
    · exact hSu
    · exact_mod_cast hA
    · exact hAu
    · omega
    · exact hDu
    · omega
    · exact hz2u
    · exact hR.1
    · omega
    · exact hb
    · rw [gcd_sq] at hAK; exact hAK.1
    · exact hcmp'.1
    · exact hcmp'.2.1
    · rw [hq]; exact hpt
    · have h1 := hcmp.2.2
      have h2 := hAK.2.2.2
      push_cast at h1 h2
      rw [← h1, h2]
    · have h1 := hcmp'.2.2.2.2
      have h2 := hDS.2.2.2
      push_cast at h1 h2
      rw [← h1, h2]
  · rintro ⟨z1, z3, hz1, hz3, hYo, r⟩
    have hn := r.n_pos
    have hN := r.N_pos
    have : NeZero n := ⟨by omega⟩
    have : NeZero N := ⟨by omega⟩
    have : NeZero (n * n) := ⟨Nat.mul_ne_zero (NeZero.ne n) (NeZero.ne n)⟩
    rw [show (n : ℤ) * (n : ℤ) = ((n * n : ℕ) : ℤ) by push_cast; rfl]
    obtain ⟨w1, a1, b1, c1⟩ := exists_residue ((beNat m.A : ZMod (n * n)) * pw (C : ZMod (n * n)) e)
    obtain ⟨w2, a2, b2, c2⟩ := exists_residue ((beNat m.D : ZMod N) * pw (beNat m.S : ZMod N) e)
    have hpt := r.point
    rw [hq] at hpt
    refine ⟨by exact_mod_cast r.S_lt, r.S_unit, by exact_mod_cast r.A_lt, r.A_unit, by exact_mod_cast r.D_lt, r.D_unit,
      by exact_mod_cast r.z2_lt, r.z2_unit, ⟨beNat m.Yx, beNat m.Yy⟩, ?_,
      InRange_ok.2 ⟨r.e_lower, by have := r.e_upper; omega⟩, z1, hz1, r.z1_bound, _, L.scalarMult_pt hX _,
      L.pt ((z1 % cv.N) • L.val G), ?_, _, L.scalarMult_pt hG _, ⟨rfl, rfl⟩,
      w1, ?_, w1, ?_, rfl, z3, hz3, w2, ?_, w2, ?_, rfl⟩
    · exact if_pos hYo
    · rw [L.add_pt (L.on_pt _) hYo, L.val_pt, hpt]
    · rw [mulExp_some, gcd_sq]
      exact ⟨r.C_ok, a1, b1, by rw [c1]; push_cast; rfl⟩
    · rw [enc0_some]
      refine ⟨a1, b1, ?_⟩
      rw [c1, ← r.paillier]; push_cast; rfl
    · rw [commit_some]
      refine ⟨r.s_ok, r.t_ok, a2, b2, ?_⟩
      rw [c2, ← r.pedersen]
    · rw [mulExp_some]
      refine ⟨?_, a2, b2, by rw [c2]; push_cast; rfl⟩
      right; rw [Int.gcd_natCast_natCast]; exact r.S_unit

/-- What proof creation returns: either no challenge was found, or a message whose parts are the residues of the
formulas of the protocol. -/
theorem log_new_spec {cv : Curve} {Gp : Type} [AddCommGroup Gp] (L : Lawful cv Gp) (Hb : Bytes → Bytes)
    (cfg : ProofConfig) (ssid : Bytes) (x rho C : ℤ) (n N : ℕ) (s t : ℤ) (X G : ECPoint)
    (hG : cv.On G) (d : Draws) (hn : 0 < n) (hN : 0 < N)
    (hs : Int.gcd s N = 1) (ht : Int.gcd t N = 1) (hrho : Int.gcd rho n = 1) :
    NewKnowExponent Hb cv cfg ssid x rho C n ((N : ℤ), s, t) X G d = .err .exceedMaxRetry ∨
    ∃ S A D z2 e salt,
      NewKnowExponent Hb cv cfg ssid x rho C n ((N : ℤ), s, t) X G d = .ok
        ⟨salt, intBytes S, intBytes A, intBytes (L.pt ((d.alpha % cv.N) • L.val G)).x,
          intBytes (L.pt ((d.alpha % cv.N) • L.val G)).y, intBytes D, bigString (d.alpha + e * x), intBytes z2,
          bigString (d.gamma + e * d.mu)⟩ ∧
      (0 ≤ S ∧ S < N ∧ (S : ZMod N) = pw (s : ZMod N) x * pw (t : ZMod N) d.mu) ∧
      (0 ≤ A ∧ A < (n * n : ℕ) ∧
        (A : ZMod (n * n)) = pw (1 + (n : ZMod (n * n))) d.alpha * (d.r : ZMod (n * n)) ^ n) ∧
      (0 ≤ D ∧ D < N ∧ (D : ZMod N) = pw (s : ZMod N) d.alpha * pw (t : ZMod N) d.gamma) ∧
      (0 ≤ z2 ∧ z2 < n ∧ (z2 : ZMod n) = (d.r : ZMod n) * pw (rho : ZMod n) e) ∧
      e = challenge Hb cfg.curveN salt
        (logParts cfg ssid n ((N : ℤ), s, t) C S A D G X (L.pt ((d.alpha % cv.N) • L.val G))) ∧
      -cfg.curveN ≤ e ∧ e ≤ cfg.curveN := by
  have : NeZero n := ⟨by omega⟩
  have : NeZero N := ⟨by omega⟩
  have : NeZero (n * n) := ⟨Nat.mul_ne_zero (NeZero.ne n) (NeZero.ne n)⟩
  obtain ⟨S, hS0, hS1, hS⟩ := exists_residue (pw (s : ZMod N) x * pw (t : ZMod N) d.mu)
  obtain ⟨A, hA0, hA1, hA⟩ := exists_residue (pw (1 + (n : ZMod (n * n))) d.alpha * (d.r : ZMod (n * n)) ^ n)
  obtain ⟨D, hD0, hD1, hD⟩ := exists_residue (pw (s : ZMod N) d.alpha * pw (t : ZMod N) d.gamma)
  have eS : commit ((N : ℤ), s, t) x d.mu = some S := by
    rw [commit_some]; exact ⟨.inr hs, .inr ht, hS0, hS1, hS⟩
  have eA : enc0 (n : ℤ) d.alpha d.r = some A := by
    rw [enc0_some]; exact ⟨hA0, hA1, hA⟩
  have eD : commit ((N : ℤ), s, t) d.alpha d.gamma = some D := by
    rw [commit_some]; exact ⟨.inr hs, .inr ht, hD0, hD1, hD⟩
  unfold NewKnowExponent
  rw [if_neg (by simp; omega), eS, eA, eD, L.scalarMult_pt hG]
  simp only
  cases hE : GetE Hb cfg.curveN
      (logParts cfg ssid n ((N : ℤ), s, t) C S A D G X (L.pt ((d.alpha % cv.N) • L.val G))) d.salts with
  | panic => exact absurd hE (getELoop_not_panic 100)
  | err er => left; rw [getELoop_err 100 er hE]
  | ok es =>
    obtain ⟨e, salt⟩ := es
    obtain ⟨he, hel, heu⟩ := GetE_spec hE
    right
    obtain ⟨z2, hz0, hz1, hz⟩ := exists_residue ((d.r : ZMod n) * pw (rho : ZMod n) e)
    have ez2 : mulExp d.r rho e (n : ℤ) = some z2 := by
      rw [mulExp_some]; exact ⟨.inr hrho, hz0, hz1, hz⟩
    simp only [ez2]
    exact ⟨S, A, D, z2, e, salt, rfl, ⟨hS0, hS1, hS⟩, ⟨hA0, hA1, hA⟩, ⟨hD0, hD1, hD⟩, ⟨hz0, hz1, hz⟩, he, hel, heu⟩

theorem cast_beNat {m : ℕ} {z : ℤ} (h : 0 ≤ z) : ((beNat (intBytes z) : ℕ) : ZMod m) = ((z : ℤ) : ZMod m) := by
  rw [← beNat_intBytes_nonneg h]; push_cast; simp

/-- C38: completeness.  For honest inputs (`C` encrypts `x` under `rho`, `X = x·G`), proof creation either reports that
no challenge was found, or yields a message which the verifier accepts exactly when the masked exponent
`α + e·x` is within the bound, and otherwise rejects for that reason and no other. -/
theorem C38_log_complete {cv : Curve} {Gp : Type} [AddCommGroup Gp] (L : Lawful cv Gp)
    (hnn : ∀ g, 0 ≤ (L.pt g).x ∧ 0 ≤ (L.pt g).y) (Hb : Bytes → Bytes)
    (cfg : ProofConfig) (hq : cfg.curveN = cv.N) (ssid : Bytes) (x rho C : ℤ) (n N : ℕ) (s t : ℤ) (X G : ECPoint)
    (hX : cv.On X) (hG : cv.On G) (hGN : cv.N • L.val G = 0) (hXG : L.val X = x • L.val G) (d : Draws)
    (hn : 0 < n) (hN : 0 < N)
    (hs : Int.gcd s N = 1) (ht : Int.gcd t N = 1) (hrho : Int.gcd rho n = 1) (hr : Int.gcd d.r n = 1)
    (hC : (C : ZMod (n * n)) = pw (1 + (n : ZMod (n * n))) x * (rho : ZMod (n * n)) ^ n) :
    NewKnowExponent Hb cv cfg ssid x rho C n ((N : ℤ), s, t) X G d = .err .exceedMaxRetry ∨
    ∃ m e, NewKnowExponent Hb cv cfg ssid x rho C n ((N : ℤ), s, t) X G d = .ok m ∧
      -cfg.curveN ≤ e ∧ e ≤ cfg.curveN ∧ parseBig 10 m.z1 = some (d.alpha + e * x) ∧
      m.verify Hb cv cfg ssid C n ((N : ℤ), s, t) X G =
        if |d.alpha + e * x| ≤ 2 * 2 ^ cfg.lAddEpsilon then .ok () else .err .z1Range := by
  have : NeZero n := ⟨by omega⟩
  have : NeZero N := ⟨by omega⟩
  have : NeZero (n * n) := ⟨Nat.mul_ne_zero (NeZero.ne n) (NeZero.ne n)⟩
  rcases log_new_spec L Hb cfg ssid x rho C n N s t X G hG d hn hN hs ht hrho with
    h | ⟨S, A, D, z2, e, salt, hm, ⟨hS0, hS1, hS⟩, ⟨hA0, hA1, hA⟩, ⟨hD0, hD1, hD⟩, ⟨hz0, hz1, hz⟩, he, hel, heu⟩
  · exact .inl h
  · right
    have uS : IsUnit (S : ZMod N) := by rw [hS]; exact (pw_isUnit hs _).mul (pw_isUnit ht _)
    have uD : IsUnit (D : ZMod N) := by rw [hD]; exact (pw_isUnit hs _).mul (pw_isUnit ht _)
    have uA : IsUnit (A : ZMod (n * n)) := by
      rw [hA]
      have h1 := pw_isUnit (gcd_one_add n) d.alpha
      push_cast at h1
      obtain ⟨ur, hur⟩ := exists_unit (gcd_sq.2 hr)
      refine h1.mul (IsUnit.pow n ?_)
      rw [← hur]; exact Units.isUnit _
    have uC : Int.gcd C n = 1 := by
      rw [← gcd_sq]
      apply gcd_of_unit
      rw [hC]
      have h1 := pw_isUnit (gcd_one_add n) x
      push_cast at h1
      obtain ⟨ur, hur⟩ := exists_unit (gcd_sq.2 hrho)
      refine h1.mul (IsUnit.pow n ?_)
      rw [← hur]; exact Units.isUnit _
    have uz : IsUnit (z2 : ZMod n) := by
      rw [hz]
      obtain ⟨ur, hur⟩ := exists_unit hr
      rw [← hur]
      exact (Units.isUnit _).mul (pw_isUnit hrho _)
    have gS := gcd_of_unit uS
    have gD := gcd_of_unit uD
    have gA := gcd_sq.1 (gcd_of_unit uA)
    have gz := gcd_of_unit uz
    set Y := L.pt ((d.alpha % cv.N) • L.val G) with hYdef
    have hYx : ((beNat (intBytes Y.x) : ℕ) : ℤ) = Y.x := beNat_intBytes_nonneg (hnn _).1
    have hYy : ((beNat (intBytes Y.y) : ℕ) : ℤ) = Y.y := beNat_intBytes_nonneg (hnn _).2
    have hYo : cv.On Y := L.on_pt _
    refine ⟨_, e, hm, hel, heu, parseBig_bigString _, ?_⟩
    by_cases hb : |d.alpha + e * x| ≤ 2 * 2 ^ cfg.lAddEpsilon
    · rw [if_pos hb, C38_log_accept_iff L Hb cfg hq ssid C n N s t X G hX hG]
      refine ⟨_, _, parseBig_bigString _, parseBig_bigString _, ?_⟩
      simp only [beNat_intBytes_nonneg hS0, beNat_intBytes_nonneg hA0, beNat_intBytes_nonneg hD0, hYx, hYy]
      rw [show (⟨Y.x, Y.y⟩ : ECPoint) = Y from rfl, ← he]
      refine ⟨hYo, ?_⟩
      constructor
      · exact hn
      · exact hN
      · have := beNat_intBytes_nonneg hS0; omega
      · rw [← Int.gcd_natCast_natCast, beNat_intBytes_nonneg hS0]; exact gS
      · have := beNat_intBytes_nonneg hA0; omega
      · rw [← Int.gcd_natCast_natCast, beNat_intBytes_nonneg hA0]; exact gA
      · have := beNat_intBytes_nonneg hD0; omega
      · rw [← Int.gcd_natCast_natCast, beNat_intBytes_nonneg hD0]; exact gD
      · have := beNat_intBytes_nonneg hz0; omega
      · rw [← Int.gcd_natCast_natCast, beNat_intBytes_nonneg hz0]; exact gz
      · exact hel
      · exact heu
      · exact hb
      · exact .inr uC
      · exact .inr hs
      · exact .inr ht
      · have hXN : cv.N • L.val X = 0 := by rw [hXG, smul_comm, hGN, smul_zero]
        rw [hq, hYdef, L.val_pt, Lawful.emod_smul hGN, Lawful.emod_smul hXN, Lawful.emod_smul hGN, hXG, ← mul_smul, ← add_smul, add_comm]
      · rw [cast_beNat hz0, cast_beNat hA0, hA, hC, add_comm d.alpha]
        exact honest_paillier hr hrho x d.alpha e hz
      · rw [cast_beNat hS0, cast_beNat hD0, hD, hS, add_comm d.alpha, add_comm d.gamma]
        exact honest_pedersen hs ht x d.mu d.alpha d.gamma e
    · rw [if_neg hb]
      unfold LogMsg.verify
      have hnew : ECPoint.new cv Y.x Y.y = some Y := if_pos hYo
      simp only [beNat_intBytes_nonneg hS0, beNat_intBytes_nonneg hA0, beNat_intBytes_nonneg hD0,
        beNat_intBytes_nonneg hz0, parseBig_bigString, hYx, hYy, hnew]
      rw [InRange_ok.2 ⟨hS0, hS1⟩, IsRelativePrime_iff.2 gS, InRange_ok.2 ⟨hD0, hD1⟩, IsRelativePrime_iff.2 gD,
        InRange_ok.2 ⟨hz0, hz1⟩, InRange_ok.2 ⟨hA0, by push_cast at hA1; exact hA1⟩, IsRelativePrime_iff.2 gA,
        IsRelativePrime_iff.2 gz]
      simp only [lift, check, if_true, Res.ok_bind, deref, Int.natCast_natAbs, Res.orErr]
      rw [← he, InRange_ok.2 ⟨hel, by omega⟩]
      simp only [Res.ok_bind]
      rw [if_neg (by simpa using hb)]
      rfl

/-- C38: special soundness of the log* proof.  Two accepting transcripts with the same first message and
different challenges: the difference of the `z1` responses is a discrete logarithm of the multiple of `X` by the difference
of the challenges, and the same integer opens that power of the ciphertext and of the commitment. -/
theorem C38_log_special_soundness {Gp : Type} [AddCommGroup Gp] {q bound : ℤ} {n N : ℕ} {s t C : ℤ} {X G : Gp}
    {S A D : ℕ} {Y : Gp} {e e' z1 z1' : ℤ} {z2 z2' : ℕ} {z3 z3' : ℤ}
    (r : LogRel q bound n N s t C X G S A D Y e z1 z2 z3) (r' : LogRel q bound n N s t C X G S A D Y e' z1' z2' z3')
    (hC : Int.gcd C n = 1) (hs : Int.gcd s N = 1) (ht : Int.gcd t N = 1) (hG : q • G = 0) (hX : q • X = 0) :
    |z1 - z1'| ≤ 2 * bound ∧ |e - e'| ≤ 2 * q ∧ (z1 - z1') • G = (e - e') • X ∧
    (∃ (w k g : (ZMod (n * n))ˣ), (k : ZMod (n * n)) = C ∧ (g : ZMod (n * n)) = 1 + n ∧ (w : ZMod (n * n)) * z2' = z2 ∧
      g ^ (z1 - z1') * w ^ n = k ^ (e - e') ∧
      ∀ a b : ℤ, a * (e - e') + b * n = 1 → k = g ^ (a * (z1 - z1')) * (w ^ a * k ^ b) ^ n) ∧
    (∃ (us ut uS : (ZMod N)ˣ), (us : ZMod N) = s ∧ (ut : ZMod N) = t ∧ (uS : ZMod N) = S ∧
      us ^ (z1 - z1') * ut ^ (z3 - z3') = uS ^ (e - e')) := by
  have f : ∀ {e z1 : ℤ} {z2 : ℕ} {z3 : ℤ}, LogRel q bound n N s t C X G S A D Y e z1 z2 z3 →
      EncRel q bound n N s t C S A D e z1 z2 z3 := fun h =>
    ⟨h.n_pos, h.N_pos, h.S_lt, h.S_unit, h.D_lt, h.D_unit, h.z2_lt, h.A_lt, h.A_unit, h.e_lower, h.e_upper, h.z1_bound,
      h.C_ok, h.s_ok, h.t_ok, h.paillier, h.pedersen⟩
  obtain ⟨h1, h2, h3, h4⟩ := C36_enc_special_soundness (f r) (f r') hC hs ht
  refine ⟨h1, h2, ?_, h3, h4⟩
  have em : ∀ {g : Gp}, q • g = 0 → ∀ k : ℤ, (k % q) • g = k • g := by
    intro g hg k
    conv_rhs => rw [← Int.emod_add_mul_ediv k q]
    rw [add_smul, mul_comm, mul_smul, hg, smul_zero, add_zero]
  have p := r.point
  have p' := r'.point
  rw [em hG, em hX] at p p'
  rw [sub_smul, sub_smul, p, p']
  abel

/-! ### Crashes -/

/-- C37: replacing a response of an accepted encryption-range proof by text that is not a decimal number makes the
verifier panic: the responses are not covered by the challenge and are not checked before use. -/
theorem C37_enc_unparsable_panics (Hb : Bytes → Bytes) (cfg : ProofConfig) (ssid : Bytes) (K n : ℤ) (ped : Ped)
    (m : EncMsg) (bad : Bytes) (hbad : parseBig 10 bad = none) (h : m.verify Hb cfg ssid K n ped = .ok ()) :
    ({ m with z1 := bad } : EncMsg).verify Hb cfg ssid K n ped = .panic ∧
    ({ m with z3 := bad } : EncMsg).verify Hb cfg ssid K n ped = .panic := by
  unfold EncMsg.verify at h ⊢
  simp only [Res.bind_ok_iff, unit_ex, lift_ok, check_ok, deref_ok] at h
  obtain ⟨hS, hSu, hC, hCu, hz2, hA, hAu, hR, z1, hz1, hb, AK, hAK, cmp, hcmp, heq, CS, hCS, z3, hz3, -⟩ := h
  constructor
  · simp only [hS, hSu, hC, hCu, hz2, hA, hAu, hR, hbad, lift, check, if_true, Res.ok_bind, deref]
    rfl
  · simp only [hS, hSu, hC, hCu, hz2, hA, hAu, hR, hz1, hb, hAK, hcmp, heq, hCS, hbad, lift, check, if_true, Res.ok_bind,
      deref]
    rfl

/-- C37: the same for the log* proof. -/
theorem C37_log_unparsable_panics (Hb : Bytes → Bytes) (cv : Curve) (cfg : ProofConfig) (ssid : Bytes) (C n : ℤ) (ped : Ped)
    (X G : ECPoint) (m : LogMsg) (bad : Bytes) (hbad : parseBig 10 bad = none)
    (h : m.verify Hb cv cfg ssid C n ped X G = .ok ()) :
    ({ m with z1 := bad } : LogMsg).verify Hb cv cfg ssid C n ped X G = .panic ∧
    ({ m with z3 := bad } : LogMsg).verify Hb cv cfg ssid C n ped X G = .panic := by
  unfold LogMsg.verify at h ⊢
  simp only [Res.bind_ok_iff, unit_ex, lift_ok, check_ok, deref_ok, derefP_ok, Res.orErr_ok] at h
  obtain ⟨hS, hSu, hA, hAu, hD, hDu, hz2, hz2u, Y, hY, hR, z1, hz1, hb, eX, heX, YX, hYX, gz, hgz, hp,
      AK, hAK, cmp, hcmp, heq, z3, hz3, -⟩ := h
  constructor
  · simp only [hS, hSu, hA, hAu, hD, hDu, hz2, hz2u, hY, hR, hbad, lift, check, if_true, Res.ok_bind, deref, Res.orErr]
    rfl
  · simp only [hS, hSu, hA, hAu, hD, hDu, hz2, hz2u, hY, hR, hz1, hb, heX, hYX, hgz, hp, hAK, hcmp, heq, hbad, lift, check,
      if_true, Res.ok_bind, deref, derefP, Res.orErr]
    rfl

/-- The message an attacker sends together with a ciphertext that is not a unit. -/
def crashMsg (salt : Bytes) : EncMsg :=
  { salt := salt, S := [1], A := [1], C := [1], z1 := ascii "0", z2 := [], z3 := ascii "0" }

/-- C37: the verifier never checks that the ciphertext is prime to the modulus: with a ciphertext sharing a factor
with `n`, a fixed message panics it for every salt whose challenge is negative (and in range). -/
theorem C37_enc_bad_ciphertext_panics (Hb : Bytes → Bytes) (cfg : ProofConfig) (ssid : Bytes) (K : ℤ) (n N : ℕ) (s t : ℤ)
    (hn : 1 < n) (hN : 1 < N) (hK : Int.gcd K n ≠ 1) (salt : Bytes)
    (he : challenge Hb cfg.curveN salt (encParts cfg ssid K n ((N : ℤ), s, t) 1 1 1) < 0)
    (he' : -cfg.curveN ≤ challenge Hb cfg.curveN salt (encParts cfg ssid K n ((N : ℤ), s, t) 1 1 1)) :
    (crashMsg salt).verify Hb cfg ssid K n ((N : ℤ), s, t) = .panic := by
  have : NeZero n := ⟨by omega⟩
  have : NeZero (n * n) := ⟨Nat.mul_ne_zero (NeZero.ne n) (NeZero.ne n)⟩
  unfold EncMsg.verify crashMsg
  simp only [show (beNat [1] : ℕ) = 1 from rfl, show (beNat [] : ℕ) = 0 from rfl, Nat.cast_one, Nat.cast_zero]
  rw [InRange_ok.2 ⟨by omega, by omega⟩, IsRelativePrime_iff.2 (by simp), InRange_ok.2 ⟨by omega, by omega⟩,
    InRange_ok.2 ⟨by omega, by nlinarith⟩, IsRelativePrime_iff.2 (by simp), InRange_ok.2 ⟨he', by omega⟩]
  have hz : parseBig 10 (ascii "0") = some 0 := by decide +kernel
  simp only [lift, check, if_true, Res.ok_bind, hz, deref]
  rw [if_pos (by simp)]
  have hnone : mulExp 1 K (challenge Hb cfg.curveN salt (encParts cfg ssid K n ((N : ℤ), s, t) 1 1 1))
      ((n : ℤ) * (n : ℤ)) = none := by
    unfold mulExp
    rw [show (n : ℤ) * (n : ℤ) = ((n * n : ℕ) : ℤ) by push_cast; rfl]
    have := (bigExp_none (n := n * n) K
      (challenge Hb cfg.curveN salt (encParts cfg ssid K n ((N : ℤ), s, t) 1 1 1))).2
      ⟨he, fun h => hK (gcd_sq.1 h)⟩
    rw [this]
  rw [hnone]
  rfl

/-! ### C39 -/

/-- C39: proofs for two statements whose points share the y-coordinate are the same message: neither the
x-coordinate of `X` nor that of `G` (as far as it does not move `Y`) enters the challenge. -/
theorem C39_log_ignores_x (Hb : Bytes → Bytes) (cv : Curve) (cfg : ProofConfig) (ssid : Bytes) (x rho C n : ℤ) (ped : Ped)
    (X X' G : ECPoint) (hy : X.y = X'.y) (d : Draws) :
    NewKnowExponent Hb cv cfg ssid x rho C n ped X G d = NewKnowExponent Hb cv cfg ssid x rho C n ped X' G d := by
  unfold NewKnowExponent logParts
  rw [hy]

/-- C39: so is the challenge recomputed by the verifier, also when the commitment point is replaced by one with the
same y-coordinate. -/
theorem C39_log_challenge_ignores_x (Hb : Bytes → Bytes) (cfg : ProofConfig) (ssid salt : Bytes) (n : ℤ) (ped : Ped)
    (C S A D : ℤ) (G X Y G' X' Y' : ECPoint) (hG : G.y = G'.y) (hX : X.y = X'.y) (hY : Y.y = Y'.y) :
    challenge Hb cfg.curveN salt (logParts cfg ssid n ped C S A D G X Y) =
      challenge Hb cfg.curveN salt (logParts cfg ssid n ped C S A D G' X' Y') := by
  unfold logParts
  rw [hG, hX, hY]

end Tss.RangeProofs
