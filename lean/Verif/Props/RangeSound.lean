import Verif.Props.RangeProofsEx
import Verif.Props.AlicePaillierEx
/-
C106: what accepted range proofs say about the plaintext that the key's owner would decrypt.
-/
namespace Tss.RangeProofs
open Tss Text Alice
open _root_.Tss.AlicePaillier (Key Decrypt)
open _root_.Tss.AlicePaillier.spec (IsKey WellFormed)
open _root_.Tss.Paillier (GoodKey mkKey decrypt_char decrypt_ok_inv)

namespace spec

/-- The challenge the verifier derives from an encryption-range message. -/
def encChallenge (Hb : Bytes → Bytes) (cfg : ProofConfig) (ssid : Bytes) (K n : ℤ) (ped : Ped) (m : EncMsg) : ℤ :=
  challenge Hb cfg.curveN m.salt (encParts cfg ssid K n ped (beNat m.S) (beNat m.A) (beNat m.C))

/-- The challenge the verifier derives from a log* message. -/
def logChallenge (Hb : Bytes → Bytes) (cfg : ProofConfig) (ssid : Bytes) (C n : ℤ) (ped : Ped) (X G : ECPoint) (m : LogMsg) : ℤ :=
  challenge Hb cfg.curveN m.salt
    (logParts cfg ssid n ped C (beNat m.S) (beNat m.A) (beNat m.D) G X ⟨beNat m.Yx, beNat m.Yy⟩)

/-- m is the fraction u/d modulo N, with a small numerator and a small denominator. -/
def SmallFraction (q bound : ℤ) (N : ℕ) (m u d : ℤ) : Prop :=
  d ≠ 0 ∧ |d| ≤ 2 * q ∧ |u| ≤ 2 * bound ∧ d * m ≡ u [ZMOD N]

end spec
open spec

/-- 1 + n has order n modulo n². -/
theorem zpow_one_add {n : ℕ} (hn : 0 < n) {g : (ZMod (n * n))ˣ} (hg : (g : ZMod (n * n)) = 1 + n) (j : ℤ) :
    g ^ j = 1 ↔ (n : ℤ) ∣ j := by
  have hval : ∀ i : ℕ, ((g ^ i : (ZMod (n * n))ˣ) : ZMod (n * n)) = 1 + ((i : ℤ) : ZMod (n * n)) * n := by
    intro i
    rw [Units.val_pow_eq_pow_val, hg, _root_.Tss.Paillier.one_add_pow_sq]
    push_cast; ring
  have hgn : g ^ (n : ℤ) = 1 := by
    ext
    rw [zpow_natCast, hval, Units.val_one]
    have : ((n : ℤ) : ZMod (n * n)) * n = 0 := by
      have := ZMod.natCast_self (n * n)
      push_cast at this ⊢
      exact this
    rw [this, add_zero]
  constructor
  · intro h
    have h1 : g ^ (j % n) = 1 := by
      have e : j = n * (j / n) + j % n := (Int.mul_ediv_add_emod j n).symm
      rw [e, zpow_add, zpow_mul, hgn, one_zpow, one_mul] at h
      exact h
    have h0 := Int.emod_nonneg j (by omega : (n : ℤ) ≠ 0)
    have hlt := Int.emod_lt_of_pos j (by omega : (0 : ℤ) < n)
    obtain ⟨i, hi⟩ := Int.eq_ofNat_of_zero_le h0
    rw [hi, zpow_natCast] at h1
    have h2 := congrArg Units.val h1
    rw [hval, Units.val_one] at h2
    have h3 : (1 : ZMod (n * n)) + ((i : ℤ) : ZMod (n * n)) * n = 1 + ((0 : ℤ) : ZMod (n * n)) * n := by
      rw [h2]; simp
    rw [_root_.Tss.Paillier.one_add_mul_inj hn, ZMod.intCast_eq_intCast_iff_dvd_sub] at h3
    have : (n : ℤ) ∣ i := by
      have := (dvd_neg (a := (n : ℤ))).mpr h3
      simpa using this
    have hz : i = 0 := Nat.eq_zero_of_dvd_of_lt (by exact_mod_cast this) (by omega)
    rw [hz] at hi
    exact Int.dvd_of_emod_eq_zero (by simpa using hi)
  · rintro ⟨c, rfl⟩
    rw [zpow_mul, hgn, one_zpow]

/-- What decryption says about a ciphertext, as units. -/
theorem decrypt_unit {k : Key} {P Q : ℕ} (h : IsKey k P Q) {cb : Bytes} {m : ℕ} (hd : Decrypt k cb = .ok (natBE m))
    {c g : (ZMod (P * Q * (P * Q)))ˣ} (hc : (c : ZMod (P * Q * (P * Q))) = (beNat cb : ℕ))
    (hg : (g : ZMod (P * Q * (P * Q))) = 1 + ((P * Q : ℕ) : ZMod (P * Q * (P * Q)))) :
    c ^ Nat.lcm (P - 1) (Q - 1) = g ^ (m * Nat.lcm (P - 1) (Q - 1)) := by
  obtain ⟨-, hd'⟩ := _root_.Tss.AlicePaillier.decrypt_inv h hd
  obtain ⟨j, hj, -, -, -, -, he⟩ := decrypt_ok_inv h.good hd'
  obtain rfl : m = j := by exact_mod_cast hj
  ext
  rw [Units.val_pow_eq_pow_val, Units.val_pow_eq_pow_val, hc, hg, _root_.Tss.Paillier.one_add_pow_sq]
  push_cast at he ⊢
  exact he

/-- The Paillier relation, decrypted. -/
theorem relation_decrypted {k : Key} {P Q : ℕ} (h : IsKey k P Q) {kb ab : Bytes} {m a : ℕ} (hm : Decrypt k kb = .ok (natBE m))
    (ha : Decrypt k ab = .ok (natBE a)) {e z1 : ℤ} {z2 : ℕ} (hz2 : Int.gcd z2 ((P * Q : ℕ) : ℤ) = 1)
    (hrel : pw (1 + ((P * Q : ℕ) : ZMod (P * Q * (P * Q)))) z1 * (z2 : ZMod (P * Q * (P * Q))) ^ (P * Q) =
      ((beNat ab : ℕ) : ZMod (P * Q * (P * Q))) * pw (((beNat kb : ℕ) : ℤ) : ZMod (P * Q * (P * Q))) e) :
    z1 ≡ a + e * m [ZMOD ((P * Q : ℕ) : ℤ)] := by
  have hone := h.good.one_lt
  have hlc := h.good.lambda_coprime
  obtain ⟨⟨-, -, wk⟩, -⟩ := _root_.Tss.AlicePaillier.decrypt_inv h hm
  obtain ⟨⟨-, -, wa⟩, -⟩ := _root_.Tss.AlicePaillier.decrypt_inv h ha
  have hnz : NeZero (P * Q) := ⟨by omega⟩
  have hnz2 : NeZero (P * Q * (P * Q)) := ⟨Nat.mul_ne_zero (NeZero.ne _) (NeZero.ne _)⟩
  have fer : ((z2 : ℤ) : ZMod (P * Q)) ^ Nat.lcm (P - 1) (Q - 1) = 1 :=
    _root_.Tss.Paillier.pow_eq_one_pq h.hP h.hQ h.ne hz2 (Nat.dvd_lcm_left _ _) (Nat.dvd_lcm_right _ _)
  obtain ⟨kk, hkk⟩ := exists_unit (n := P * Q * (P * Q)) (x := (beNat kb : ℕ)) (gcd_sq.2 (by rw [Int.gcd_natCast_natCast]; exact wk))
  obtain ⟨aa, haa⟩ := exists_unit (n := P * Q * (P * Q)) (x := (beNat ab : ℕ)) (gcd_sq.2 (by rw [Int.gcd_natCast_natCast]; exact wa))
  obtain ⟨g, hg⟩ := exists_unit (gcd_one_add (P * Q))
  obtain ⟨u, hu⟩ := exists_unit (n := P * Q * (P * Q)) (gcd_sq.2 hz2)
  have hg' : (g : ZMod (P * Q * (P * Q))) = 1 + ((P * Q : ℕ) : ZMod (P * Q * (P * Q))) := by rw [hg]; push_cast; rfl
  have haa' : (aa : ZMod (P * Q * (P * Q))) = ((beNat ab : ℕ) : ZMod (P * Q * (P * Q))) := by rw [haa]; push_cast; rfl
  have hkk' : (kk : ZMod (P * Q * (P * Q))) = ((beNat kb : ℕ) : ZMod (P * Q * (P * Q))) := by rw [hkk]; push_cast; rfl
  have hu' : (z2 : ZMod (P * Q * (P * Q))) = (u : ZMod (P * Q * (P * Q))) := by rw [hu]; push_cast; rfl
  rw [← hg', hu', ← haa', ← hkk, pw_unit, pw_unit, ← Units.val_pow_eq_pow_val, ← Units.val_mul, ← Units.val_mul, Units.val_inj] at hrel
  have d1 := decrypt_unit h hm hkk' hg'
  have d2 := decrypt_unit h ha haa' hg'
  have d3 : (u ^ (P * Q)) ^ Nat.lcm (P - 1) (Q - 1) = 1 := by
    ext
    rw [← pow_mul, mul_comm (P * Q) (Nat.lcm _ _), pow_mul, Units.val_pow_eq_pow_val, Units.val_pow_eq_pow_val, ← hu', Units.val_one]
    have h2 := pow_eq_of_modEq (n := P * Q) (a := (z2 : ℤ) ^ (Nat.lcm (P - 1) (Q - 1))) (b := 1) (by
      push_cast at fer ⊢; exact fer)
    push_cast at h2
    rw [one_pow] at h2
    exact h2
  generalize hn : P * Q = n at *
  generalize hl : Nat.lcm (P - 1) (Q - 1) = l at *
  have key : g ^ ((z1 - (a + e * m)) * l) = 1 := by
    have h1 := congrArg (· ^ l) hrel
    simp only [mul_pow] at h1
    rw [d3, mul_one, d2] at h1
    have e1 : (kk ^ e) ^ l = g ^ (e * m * l) := by
      rw [← zpow_natCast, ← zpow_mul, mul_comm e (l : ℤ), zpow_mul, zpow_natCast, d1, ← zpow_natCast, ← zpow_mul]
      congr 1
      push_cast; ring
    rw [e1] at h1
    have e2 : (g ^ z1) ^ l = g ^ (z1 * l) := by rw [← zpow_natCast, ← zpow_mul]
    have e3 : g ^ (a * l) = g ^ ((a : ℤ) * l) := by rw [← zpow_natCast]; push_cast; rfl
    rw [e2, e3, ← zpow_add] at h1
    have e4 : (z1 - (a + e * m)) * l = z1 * l - ((a : ℤ) * l + e * m * l) := by ring
    rw [e4, zpow_sub, h1, mul_inv_cancel]
  rw [zpow_one_add (by omega) hg'] at key
  have hcop : IsCoprime (n : ℤ) (l : ℤ) := by
    rw [Nat.isCoprime_iff_coprime]
    first | exact hlc | exact hlc.symm
  exact (Int.modEq_iff_dvd.mpr (by simpa using hcop.dvd_of_dvd_mul_right key)).symm

/-- The relations of an accepted encryption-range message. -/
theorem enc_rel {Hb : Bytes → Bytes} {cfg : ProofConfig} {ssid : Bytes} {K : ℤ} {n : ℕ} {ped : Ped} {msg : EncMsg}
    (hv : msg.verify Hb cfg ssid K n ped = .ok ()) :
    ∃ (N : ℕ) (z1 z3 : ℤ), ped.1 = N ∧ parseBig 10 msg.z1 = some z1 ∧ parseBig 10 msg.z3 = some z3 ∧
      EncRel cfg.curveN (2 * 2 ^ cfg.lAddEpsilon) n N ped.2.1 ped.2.2 K (beNat msg.S) (beNat msg.A) (beNat msg.C)
        (encChallenge Hb cfg ssid K n ped msg) z1 (beNat msg.z2) z3 := by
  obtain ⟨pN, s, t⟩ := ped
  have hpos := (C36_enc_accept_pos Hb cfg ssid K n (pN, s, t) msg hv).2
  obtain ⟨N, rfl⟩ := Int.eq_ofNat_of_zero_le (le_of_lt hpos)
  obtain ⟨z1, z3, h1, h3, hr⟩ := (C36_enc_accept_iff Hb cfg ssid K n N s t msg).mp hv
  exact ⟨N, z1, z3, rfl, h1, h3, hr⟩

/-- C106: an accepted encryption-range proof answers for the decrypted values.  For the owner's key (any product of two distinct primes
prime to its totient) and a ciphertext that decrypts to m, the first message decrypts to some a and the answer z1, an integer within the
range bound, is a + e·m modulo the key's modulus, where e is the verifier's challenge. -/
theorem C106_enc_answer (Hb : Bytes → Bytes) (cfg : ProofConfig) (ssid : Bytes) (k : Key) (P Q : ℕ) (hk : IsKey k P Q) (kb : Bytes) (m : ℕ)
    (hm : Decrypt k kb = .ok (natBE m)) (ped : Ped) (msg : EncMsg)
    (hv : msg.verify Hb cfg ssid (beNat kb) ((P * Q : ℕ) : ℤ) ped = .ok ()) :
    ∃ (a : ℕ) (z1 : ℤ), a < P * Q ∧ Decrypt k msg.A = .ok (natBE a) ∧ parseBig 10 msg.z1 = some z1 ∧
      |z1| ≤ 2 * 2 ^ cfg.lAddEpsilon ∧ |encChallenge Hb cfg ssid (beNat kb) ((P * Q : ℕ) : ℤ) ped msg| ≤ cfg.curveN ∧
      z1 ≡ a + encChallenge Hb cfg ssid (beNat kb) ((P * Q : ℕ) : ℤ) ped msg * m [ZMOD ((P * Q : ℕ) : ℤ)] := by
  obtain ⟨N, z1, z3, -, h1, -, r⟩ := enc_rel hv
  have hone := hk.good.one_lt
  obtain ⟨⟨-, -, wk⟩, -⟩ := _root_.Tss.AlicePaillier.decrypt_inv hk hm
  have hA : WellFormed (beNat msg.A) (P * Q) := by
    refine ⟨?_, r.A_lt, r.A_unit⟩
    by_contra h0
    have h0 : beNat msg.A = 0 := by omega
    have := r.A_unit
    rw [h0, Nat.gcd_zero_left] at this
    omega
  obtain ⟨a, ha, hda⟩ := (_root_.Tss.AlicePaillier.C34_decrypt_total k P Q hk msg.A).1.mp hA
  refine ⟨a, z1, ha, hda, h1, r.z1_bound, abs_le.mpr ⟨r.e_lower, r.e_upper⟩, ?_⟩
  exact relation_decrypted hk hm hda (r.z2_unit (by rw [Int.gcd_natCast_natCast]; exact wk)) r.paillier

/-- C106: two accepted answers to different challenges for one first message say what the plaintext is: a fraction with numerator and
denominator within the bounds. -/
theorem C106_enc_two_answers (Hb : Bytes → Bytes) (cfg : ProofConfig) (ssid ssid' : Bytes) (k : Key) (P Q : ℕ) (hk : IsKey k P Q) (kb : Bytes)
    (m : ℕ) (hm : Decrypt k kb = .ok (natBE m)) (ped ped' : Ped) (msg msg' : EncMsg) (hA : msg.A = msg'.A)
    (hv : msg.verify Hb cfg ssid (beNat kb) ((P * Q : ℕ) : ℤ) ped = .ok ())
    (hv' : msg'.verify Hb cfg ssid' (beNat kb) ((P * Q : ℕ) : ℤ) ped' = .ok ())
    (he : encChallenge Hb cfg ssid (beNat kb) ((P * Q : ℕ) : ℤ) ped msg ≠ encChallenge Hb cfg ssid' (beNat kb) ((P * Q : ℕ) : ℤ) ped' msg') :
    ∃ z1 z1', parseBig 10 msg.z1 = some z1 ∧ parseBig 10 msg'.z1 = some z1' ∧
      SmallFraction cfg.curveN (2 * 2 ^ cfg.lAddEpsilon) (P * Q) m (z1 - z1')
        (encChallenge Hb cfg ssid (beNat kb) ((P * Q : ℕ) : ℤ) ped msg - encChallenge Hb cfg ssid' (beNat kb) ((P * Q : ℕ) : ℤ) ped' msg') := by
  obtain ⟨a, z1, ha, hd, h1, hb, hq, hz⟩ := C106_enc_answer Hb cfg ssid k P Q hk kb m hm ped msg hv
  obtain ⟨a', z1', ha', hd', h1', hb', hq', hz'⟩ := C106_enc_answer Hb cfg ssid' k P Q hk kb m hm ped' msg' hv'
  have haa : a = a' := by
    rw [hA, hd'] at hd
    simp only [Res.ok.injEq] at hd
    have := congrArg beNat hd
    rw [beNat_natBE, beNat_natBE] at this
    exact this.symm
  subst haa
  generalize encChallenge Hb cfg ssid (beNat kb) ((P * Q : ℕ) : ℤ) ped msg = e at *
  generalize encChallenge Hb cfg ssid' (beNat kb) ((P * Q : ℕ) : ℤ) ped' msg' = e' at *
  generalize (2 : ℤ) * 2 ^ cfg.lAddEpsilon = B at *
  refine ⟨z1, z1', h1, h1', sub_ne_zero.mpr he, ?_, ?_, ?_⟩
  · rw [abs_le] at hq hq' ⊢; constructor <;> linarith [hq.1, hq.2, hq'.1, hq'.2]
  · rw [abs_le] at hb hb' ⊢; constructor <;> linarith [hb.1, hb.2, hb'.1, hb'.2]
  · have := (hz.sub hz').symm
    have e1 : (a : ℤ) + e * m - (a + e' * m) = (e - e') * m := by ring
    rw [e1] at this
    exact this

/-- C106: so a ciphertext whose plaintext is no such fraction passes for at most one challenge per first message, whatever the ring-Pedersen
parameters and whatever the prover does. -/
theorem C106_enc_one_challenge (Hb : Bytes → Bytes) (cfg : ProofConfig) (ssid : Bytes) (k : Key) (P Q : ℕ) (hk : IsKey k P Q) (kb : Bytes)
    (m : ℕ) (hm : Decrypt k kb = .ok (natBE m)) (ped : Ped)
    (hbad : ∀ u d, ¬ SmallFraction cfg.curveN (2 * 2 ^ cfg.lAddEpsilon) (P * Q) m u d) (msg msg' : EncMsg) (hA : msg.A = msg'.A)
    (hv : msg.verify Hb cfg ssid (beNat kb) ((P * Q : ℕ) : ℤ) ped = .ok ())
    (hv' : msg'.verify Hb cfg ssid (beNat kb) ((P * Q : ℕ) : ℤ) ped = .ok ()) :
    encChallenge Hb cfg ssid (beNat kb) ((P * Q : ℕ) : ℤ) ped msg = encChallenge Hb cfg ssid (beNat kb) ((P * Q : ℕ) : ℤ) ped msg' := by
  by_contra he
  obtain ⟨z1, z1', -, -, hf⟩ := C106_enc_two_answers Hb cfg ssid ssid k P Q hk kb m hm ped ped msg msg' hA hv hv' he
  exact hbad _ _ hf

/-- C106: a plaintext is at most one such fraction, once the modulus is large enough. -/
theorem C106_fraction_unique (q bound : ℤ) (N : ℕ) (hN : 8 * q * bound < N) (m u d u' d' : ℤ)
    (h : SmallFraction q bound N m u d) (h' : SmallFraction q bound N m u' d') : u * d' = u' * d := by
  obtain ⟨-, hd, hu, he⟩ := h
  obtain ⟨-, hd', hu', he'⟩ := h'
  have hq : 0 ≤ q := by have := abs_nonneg d; linarith
  have hB : 0 ≤ bound := by have := abs_nonneg u; linarith
  have h1 : u * d' ≡ u' * d [ZMOD N] := by
    have a1 := (he.mul_right d').symm
    have a2 := he'.mul_right d
    have e : d * m * d' = d' * m * d := by ring
    rw [e] at a1
    exact a1.trans a2
  have h2 : |u' * d - u * d'| < N := by
    have b1 : |u * d'| ≤ 2 * bound * (2 * q) := by
      rw [abs_mul]; exact mul_le_mul hu hd' (abs_nonneg _) (by linarith)
    have b2 : |u' * d| ≤ 2 * bound * (2 * q) := by
      rw [abs_mul]; exact mul_le_mul hu' hd (abs_nonneg _) (by linarith)
    calc |u' * d - u * d'| ≤ |u' * d| + |u * d'| := abs_sub _ _
      _ ≤ 2 * bound * (2 * q) + 2 * bound * (2 * q) := add_le_add b2 b1
      _ = 8 * q * bound := by ring
      _ < N := hN
  have h3 := Int.eq_zero_of_abs_lt_dvd (Int.modEq_iff_dvd.mp h1) h2
  linarith

/-- C106: few plaintexts are such fractions: at most (4q+1)(4·bound+1), for a key whose primes exceed 2q. -/
theorem C106_few_fractions (q bound P Q : ℕ) (hP : P.Prime) (hQ : Q.Prime) (hqP : 2 * q < P) (hqQ : 2 * q < Q) :
    {m : ℕ | m < P * Q ∧ ∃ u d, SmallFraction q bound (P * Q) m u d}.ncard ≤ (4 * q + 1) * (4 * bound + 1) := by
  classical
  let T : Finset (ℤ × ℤ) := Finset.Icc (-(2 * bound : ℤ)) (2 * bound) ×ˢ Finset.Icc (-(2 * q : ℤ)) (2 * q)
  have hT : (T : Set (ℤ × ℤ)).ncard = (4 * q + 1) * (4 * bound + 1) := by
    rw [Set.ncard_coe_finset, Finset.card_product, Int.card_Icc, Int.card_Icc, mul_comm]
    congr 1 <;> omega
  rw [← hT]
  let F : ℕ → ℤ × ℤ := fun m => if h : ∃ p : ℤ × ℤ, SmallFraction q bound (P * Q) m p.1 p.2 then h.choose else 0
  have hF : ∀ m : ℕ, (∃ u d, SmallFraction q bound (P * Q) m u d) → SmallFraction q bound (P * Q) m (F m).1 (F m).2 := by
    rintro m ⟨u, d, h⟩
    have h' : ∃ p : ℤ × ℤ, SmallFraction q bound (P * Q) m p.1 p.2 := ⟨(u, d), h⟩
    have : F m = h'.choose := dif_pos h'
    rw [this]; exact h'.choose_spec
  refine Set.ncard_le_ncard_of_injOn F (fun m hm => ?_) (fun m hm m' hm' hmm => ?_) T.finite_toSet
  · obtain ⟨-, h2, h3, -⟩ := hF m hm.2
    rw [abs_le] at h2 h3
    simp only [T, Finset.coe_product, Finset.coe_Icc, Set.mem_prod, Set.mem_Icc]
    exact ⟨h3, h2⟩
  · obtain ⟨hd0, hd, -, he⟩ := hF m hm.2
    obtain ⟨-, -, -, he'⟩ := hF m' hm'.2
    rw [← hmm] at he'
    have hc : IsCoprime ((P * Q : ℕ) : ℤ) (F m).2 := by
      have hp : ∀ R : ℕ, R.Prime → 2 * q < R → IsCoprime (R : ℤ) (F m).2 := by
        intro R hR hlt
        rw [(Nat.prime_iff_prime_int.mp hR).coprime_iff_not_dvd]
        intro hdvd
        have := Int.le_of_dvd (abs_pos.mpr hd0) ((dvd_abs _ _).mpr hdvd)
        omega
      rw [Nat.cast_mul]
      exact (hp P hP hqP).mul_left (hp Q hQ hqQ)
    have h1 := Int.modEq_iff_dvd.mp (he.trans he'.symm)
    rw [← mul_sub] at h1
    have h2 := hc.dvd_of_dvd_mul_left h1
    have h3 : m ≡ m' [MOD P * Q] := (Int.natCast_modEq_iff).mp (Int.modEq_iff_dvd.mpr h2)
    exact h3.eq_of_lt_of_lt hm.1 hm'.1

/-! ### The log* proof -/

/-- The relations of an accepted log* message. -/
theorem log_rel {cv : Curve} {Gp : Type} [AddCommGroup Gp] (L : Lawful cv Gp) {Hb : Bytes → Bytes} {cfg : ProofConfig} (hq : cfg.curveN = cv.N)
    {ssid : Bytes} {C : ℤ} {n : ℕ} {ped : Ped} {X G : ECPoint} (hX : cv.On X) (hG : cv.On G) {msg : LogMsg}
    (hv : msg.verify Hb cv cfg ssid C n ped X G = .ok ()) :
    ∃ (N : ℕ) (z1 z3 : ℤ), ped.1 = N ∧ parseBig 10 msg.z1 = some z1 ∧ parseBig 10 msg.z3 = some z3 ∧ cv.On ⟨beNat msg.Yx, beNat msg.Yy⟩ ∧
      LogRel cfg.curveN (2 * 2 ^ cfg.lAddEpsilon) n N ped.2.1 ped.2.2 C (L.val X) (L.val G) (beNat msg.S) (beNat msg.A) (beNat msg.D)
        (L.val ⟨beNat msg.Yx, beNat msg.Yy⟩) (logChallenge Hb cfg ssid C n ped X G msg) z1 (beNat msg.z2) z3 := by
  obtain ⟨pN, s, t⟩ := ped
  have hpos : 0 < pN := by
    have h := hv
    unfold LogMsg.verify at h
    simp only [Res.bind_ok_iff, unit_ex, lift_ok, InRange_nat] at h
    have := h.1
    omega
  obtain ⟨N, rfl⟩ := Int.eq_ofNat_of_zero_le (le_of_lt hpos)
  obtain ⟨z1, z3, h1, h3, hY, hr⟩ := (C38_log_accept_iff L Hb cfg hq ssid C n N s t X G hX hG msg).mp hv
  exact ⟨N, z1, z3, rfl, h1, h3, hY, hr⟩

/-- C106: an accepted log* proof answers for the decrypted value and for the point with one and the same integer. -/
theorem C106_log_answer {cv : Curve} {Gp : Type} [AddCommGroup Gp] (L : Lawful cv Gp) (Hb : Bytes → Bytes) (cfg : ProofConfig)
    (hq : cfg.curveN = cv.N) (ssid : Bytes) (k : Key) (P Q : ℕ) (hk : IsKey k P Q) (kb : Bytes) (m : ℕ)
    (hm : Decrypt k kb = .ok (natBE m)) (ped : Ped) (X G : ECPoint) (hX : cv.On X) (hG : cv.On G)
    (hGN : cv.N • L.val G = 0) (msg : LogMsg)
    (hv : msg.verify Hb cv cfg ssid (beNat kb) ((P * Q : ℕ) : ℤ) ped X G = .ok ()) :
    ∃ (a : ℕ) (z1 : ℤ), a < P * Q ∧ Decrypt k msg.A = .ok (natBE a) ∧ parseBig 10 msg.z1 = some z1 ∧
      |z1| ≤ 2 * 2 ^ cfg.lAddEpsilon ∧ |logChallenge Hb cfg ssid (beNat kb) ((P * Q : ℕ) : ℤ) ped X G msg| ≤ cfg.curveN ∧
      z1 ≡ a + logChallenge Hb cfg ssid (beNat kb) ((P * Q : ℕ) : ℤ) ped X G msg * m [ZMOD ((P * Q : ℕ) : ℤ)] ∧
      z1 • L.val G =
        L.val ⟨beNat msg.Yx, beNat msg.Yy⟩ + (logChallenge Hb cfg ssid (beNat kb) ((P * Q : ℕ) : ℤ) ped X G msg % cv.N) • L.val X := by
  obtain ⟨N, z1, z3, -, h1, -, -, r⟩ := log_rel L hq hX hG hv
  have hone := hk.good.one_lt
  have hA : WellFormed (beNat msg.A) (P * Q) := by
    refine ⟨?_, r.A_lt, r.A_unit⟩
    by_contra h0
    have h0 : beNat msg.A = 0 := by omega
    have := r.A_unit
    rw [h0, Nat.gcd_zero_left] at this
    omega
  obtain ⟨a, ha, hda⟩ := (_root_.Tss.AlicePaillier.C34_decrypt_total k P Q hk msg.A).1.mp hA
  refine ⟨a, z1, ha, hda, h1, r.z1_bound, abs_le.mpr ⟨r.e_lower, r.e_upper⟩, ?_, ?_⟩
  · exact relation_decrypted hk hm hda (by rw [Int.gcd_natCast_natCast]; exact r.z2_unit) r.paillier
  · have hp := r.point
    have red : ∀ (z : ℤ) (g : Gp), cv.N • g = 0 → (z % cfg.curveN) • g = z • g := by
      intro z g hg
      rw [hq]
      conv_rhs => rw [← Int.emod_add_mul_ediv z cv.N, add_smul, mul_comm, mul_smul, hg, smul_zero, add_zero]
    rw [red _ _ hGN, hq] at hp
    rw [hp, add_comm]

/-- C106: two accepted log* answers to different challenges for one first message: the plaintext is a fraction u/d within the bounds and
d·X = u·G for the same u and d.  If X is outside the subgroup of G, this holds for every multiple c·X inside it with c·G = G: the code
uses the one that EightInvEight gives. -/
theorem C106_log_two_answers {cv : Curve} {Gp : Type} [AddCommGroup Gp] (L : Lawful cv Gp) (Hb : Bytes → Bytes) (cfg : ProofConfig)
    (hq : cfg.curveN = cv.N) (ssid ssid' : Bytes) (k : Key) (P Q : ℕ) (hk : IsKey k P Q) (kb : Bytes) (m : ℕ)
    (hm : Decrypt k kb = .ok (natBE m)) (ped ped' : Ped) (X G : ECPoint) (hX : cv.On X) (hG : cv.On G)
    (hGN : cv.N • L.val G = 0) (c : ℤ) (hcG : c • L.val G = L.val G) (hXN : cv.N • (c • L.val X) = 0) (msg msg' : LogMsg)
    (hA : msg.A = msg'.A) (hY : msg.Yx = msg'.Yx ∧ msg.Yy = msg'.Yy)
    (hv : msg.verify Hb cv cfg ssid (beNat kb) ((P * Q : ℕ) : ℤ) ped X G = .ok ())
    (hv' : msg'.verify Hb cv cfg ssid' (beNat kb) ((P * Q : ℕ) : ℤ) ped' X G = .ok ())
    (he : logChallenge Hb cfg ssid (beNat kb) ((P * Q : ℕ) : ℤ) ped X G msg ≠
      logChallenge Hb cfg ssid' (beNat kb) ((P * Q : ℕ) : ℤ) ped' X G msg') :
    ∃ u, SmallFraction cfg.curveN (2 * 2 ^ cfg.lAddEpsilon) (P * Q) m u
        (logChallenge Hb cfg ssid (beNat kb) ((P * Q : ℕ) : ℤ) ped X G msg - logChallenge Hb cfg ssid' (beNat kb) ((P * Q : ℕ) : ℤ) ped' X G msg') ∧
      (logChallenge Hb cfg ssid (beNat kb) ((P * Q : ℕ) : ℤ) ped X G msg -
        logChallenge Hb cfg ssid' (beNat kb) ((P * Q : ℕ) : ℤ) ped' X G msg') • (c • L.val X) = u • L.val G := by
  obtain ⟨a, z1, ha, hd, h1, hb, hqe, hz, hp⟩ := C106_log_answer L Hb cfg hq ssid k P Q hk kb m hm ped X G hX hG hGN msg hv
  obtain ⟨a', z1', ha', hd', h1', hb', hqe', hz', hp'⟩ := C106_log_answer L Hb cfg hq ssid' k P Q hk kb m hm ped' X G hX hG hGN msg' hv'
  have haa : a = a' := by
    rw [hA, hd'] at hd
    simp only [Res.ok.injEq] at hd
    have := congrArg beNat hd
    rw [beNat_natBE, beNat_natBE] at this
    exact this.symm
  subst haa
  rw [hY.1, hY.2] at hp
  generalize logChallenge Hb cfg ssid (beNat kb) ((P * Q : ℕ) : ℤ) ped X G msg = e at *
  generalize logChallenge Hb cfg ssid' (beNat kb) ((P * Q : ℕ) : ℤ) ped' X G msg' = e' at *
  generalize (2 : ℤ) * 2 ^ cfg.lAddEpsilon = B at *
  refine ⟨z1 - z1', ⟨sub_ne_zero.mpr he, ?_, ?_, ?_⟩, ?_⟩
  · rw [abs_le] at hqe hqe' ⊢; constructor <;> linarith [hqe.1, hqe.2, hqe'.1, hqe'.2]
  · rw [abs_le] at hb hb' ⊢; constructor <;> linarith [hb.1, hb.2, hb'.1, hb'.2]
  · have := (hz.sub hz').symm
    have e1 : (a : ℤ) + e * m - (a + e' * m) = (e - e') * m := by ring
    rw [e1] at this
    exact this
  · have red : ∀ z : ℤ, z • (c • L.val X) = c • ((z % cv.N) • L.val X) := by
      intro z
      have e1 : z • (c • L.val X) = (z % cv.N) • (c • L.val X) := by
        conv_lhs => rw [← Int.emod_add_mul_ediv z cv.N, add_smul, mul_comm, mul_smul, hXN, smul_zero, add_zero]
      rw [e1, smul_comm]
    rw [sub_smul, sub_smul, red, red, ← hcG, smul_comm z1, smul_comm z1', hp, hp', ← smul_sub, ← smul_sub]
    congr 1
    abel

/-- C106: the encryption-range proof of round 1 and the log* proof of round 2 speak of the same number.  If the plaintext is u/d by the
first and u'/d' by the second, with d' prime to the group order, then d·X = u·G: the nonce point is the one of the encrypted nonce. -/
theorem C106_same_number {Gp : Type} [AddCommGroup Gp] (q bound : ℤ) (N : ℕ) (hN : 8 * q * bound < N) (m u d u' d' : ℤ) (X G : Gp)
    (hX : q • X = 0) (hG : q • G = 0) (h : SmallFraction q bound N m u d) (h' : SmallFraction q bound N m u' d')
    (hd : IsCoprime d' q) (hx : d' • X = u' • G) : d • X = u • G := by
  have hu := C106_fraction_unique q bound N hN m u d u' d' h h'
  have h1 : d' • (d • X - u • G) = 0 := by
    rw [smul_sub, smul_smul, smul_smul, mul_comm d' d, ← smul_smul, hx, smul_smul, ← sub_smul]
    have : d * u' - d' * u = 0 := by linarith
    rw [this, zero_smul]
  have h2 : q • (d • X - u • G) = 0 := by
    rw [smul_sub, smul_comm, hX, smul_comm, hG, smul_zero, smul_zero, sub_zero]
  obtain ⟨x, y, hxy⟩ := hd
  have : (1 : ℤ) • (d • X - u • G) = 0 := by
    rw [← hxy, add_smul, mul_smul, mul_smul, h1, h2, smul_zero, smul_zero, add_zero]
  rw [one_smul] at this
  exact sub_eq_zero.mp this

/-- C106: the log* verifier only takes units of the modulus for the ciphertext, except for challenge 0. -/
theorem C106_log_unit {cv : Curve} {Gp : Type} [AddCommGroup Gp] (L : Lawful cv Gp) (Hb : Bytes → Bytes) (cfg : ProofConfig)
    (hq : cfg.curveN = cv.N) (ssid : Bytes) (K : ℤ) (n : ℕ) (ped : Ped) (X G : ECPoint) (hX : cv.On X) (hG : cv.On G) (msg : LogMsg)
    (hv : msg.verify Hb cv cfg ssid K n ped X G = .ok ()) (he : logChallenge Hb cfg ssid K n ped X G msg ≠ 0) : Int.gcd K n = 1 := by
  obtain ⟨N, z1, z3, -, -, -, -, r⟩ := log_rel L hq hX hG hv
  rcases r.C_ok with h0 | h
  · have hn := r.n_pos
    have : NeZero n := ⟨by omega⟩
    have : NeZero (n * n) := ⟨Nat.mul_ne_zero (NeZero.ne n) (NeZero.ne n)⟩
    obtain ⟨e, hee⟩ := Int.eq_ofNat_of_zero_le h0
    have hp := r.paillier
    rw [hee, pw_natCast] at hp
    obtain ⟨g, hg⟩ := exists_unit (gcd_one_add n)
    obtain ⟨u, hu⟩ := exists_unit (n := n * n) (x := (beNat msg.z2 : ℕ)) (gcd_sq.2 (by rw [Int.gcd_natCast_natCast]; exact r.z2_unit))
    have hg' : (1 + (n : ZMod (n * n))) = (g : ZMod (n * n)) := by rw [hg]; push_cast; rfl
    have hu' : ((beNat msg.z2 : ℕ) : ZMod (n * n)) = (u : ZMod (n * n)) := by rw [hu]; push_cast; rfl
    rw [hg', hu', pw_unit, ← Units.val_pow_eq_pow_val, ← Units.val_mul] at hp
    rw [← gcd_sq]
    apply gcd_of_unit
    have h2 : IsUnit ((K : ZMod (n * n)) ^ e) := isUnit_of_mul_isUnit_right (hp ▸ Units.isUnit _)
    have e0 : e ≠ 0 := by rintro rfl; exact he (by simpa using hee)
    exact (isUnit_pow_iff e0).mp h2
  · exact h

/-- C106, deviation: the encryption-range verifier does not.  With a ciphertext divisible by the modulus - the empty string, for
instance - which nobody can decrypt, a fixed message is accepted for every salt whose challenge is at least 2. -/
theorem C106_enc_accepts_non_ciphertext (Hb : Bytes → Bytes) (cfg : ProofConfig) (ssid : Bytes) (K : ℤ) (n N : ℕ) (s t : ℤ)
    (hn : 1 < n) (hN : 1 < N) (hK : (n : ℤ) ∣ K) (salt : Bytes)
    (he : 2 ≤ encChallenge Hb cfg ssid K n ((N : ℤ), s, t) (crashMsg salt))
    (he' : encChallenge Hb cfg ssid K n ((N : ℤ), s, t) (crashMsg salt) ≤ cfg.curveN) :
    (crashMsg salt).verify Hb cfg ssid K n ((N : ℤ), s, t) = .ok () ∧ Int.gcd K n ≠ 1 := by
  constructor
  · rw [C36_enc_accept_iff]
    have hz : parseBig 10 (ascii "0") = some 0 := by decide +kernel
    refine ⟨0, 0, hz, hz, ?_⟩
    change EncRel _ _ _ _ _ _ _ _ _ _ (encChallenge Hb cfg ssid K n ((N : ℤ), s, t) (crashMsg salt)) _ _ _
    have b1 : beNat (crashMsg salt).S = 1 := rfl
    have b2 : beNat (crashMsg salt).A = 1 := rfl
    have b3 : beNat (crashMsg salt).C = 1 := rfl
    have b4 : beNat (crashMsg salt).z2 = 0 := rfl
    rw [b1, b2, b3, b4]
    generalize encChallenge Hb cfg ssid K n ((N : ℤ), s, t) (crashMsg salt) = e at *
    obtain ⟨i, rfl⟩ := Int.eq_ofNat_of_zero_le (by omega : 0 ≤ e)
    refine ⟨by omega, by omega, hN, Nat.gcd_one_left _, hN, Nat.gcd_one_left _, by omega, by nlinarith, Nat.gcd_one_left _,
      by omega, he', by simp, .inl (by omega), .inl le_rfl, .inl le_rfl, ?_, ?_⟩
    · rw [pw_natCast]
      have hk : (K : ZMod (n * n)) ^ i = 0 := by
        obtain ⟨c, rfl⟩ := hK
        obtain ⟨j, rfl⟩ : ∃ j, i = j + 2 := ⟨i - 2, by omega⟩
        have : ((n : ZMod (n * n))) * n = 0 := by
          have := ZMod.natCast_self (n * n)
          push_cast at this
          exact this
        rw [pow_add, pow_two]
        push_cast
        have e2 : (n : ZMod (n * n)) * (c : ZMod (n * n)) * ((n : ZMod (n * n)) * (c : ZMod (n * n))) = (n : ZMod (n * n)) * n * (c * c) := by ring
        rw [e2, this, zero_mul, mul_zero]
      rw [hk, mul_zero, Nat.cast_zero, zero_pow (by omega), mul_zero]
    · simp [pw]
  · intro h
    have h1 : (n : ℤ) ∣ (Int.gcd K n : ℤ) := Int.dvd_coe_gcd hK (dvd_refl _)
    rw [h] at h1
    have := Int.le_of_dvd (by norm_num) h1
    omega

/-- C106: the bound on the modulus holds for the curve and key size the library uses. -/
theorem C106_bound_ed25519 (N : ℕ) (hN : 2048 ≤ bitLen (N : ℤ)) :
    8 * (NewProofConfig Ed.curve.N).curveN * (2 * 2 ^ (NewProofConfig Ed.curve.N).lAddEpsilon) < N := by
  have h1 : 8 * (NewProofConfig Ed.curve.N).curveN * (2 * 2 ^ (NewProofConfig Ed.curve.N).lAddEpsilon) < 2 ^ 2047 := by decide +kernel
  have h2 : 2 ^ 2047 ≤ N := by
    rw [Common.bitLen_nat] at hN
    exact Nat.lt_size.mp (by omega)
  have h3 : ((2 ^ 2047 : ℕ) : ℤ) ≤ N := Int.ofNat_le.mpr h2
  rw [Nat.cast_pow] at h3
  exact lt_of_lt_of_le h1 h3

/-! ### Concrete cases -/

/-- The key of 3 and 5. -/
def key15 : Key := ⟨⟨15, 16, 225⟩, ⟨3, 5, 4, 8, 4⟩⟩

theorem key15_ok : IsKey key15 3 5 := by
  constructor
  all_goals first | exact Nat.prime_three | exact Nat.prime_five | decide +kernel

/-- A hash that depends on the length of what is hashed. -/
def hbLen : Bytes → Bytes := fun b => (if b.length % 2 = 0 then 152 else 64) :: List.replicate 31 0

def encEx (salt : Bytes) : EncMsg :=
  match NewEncryptRangeMessage hbLen (NewProofConfig 11) [9] ct0 15 3 2 (35, 4, 9) ⟨100, 5, 2, 7, fun _ => salt⟩ with
  | .ok m => m
  | _ => ⟨[], [], [], [], [], [], []⟩

/-- Two accepted messages with one first message and different challenges, for a ciphertext that decrypts to 3. -/
example : IsKey key15 3 5 ∧ Decrypt key15 (natBE ct0.toNat) = .ok (natBE 3) ∧ (encEx [1]).A = (encEx [1, 2]).A ∧
    (encEx [1]).verify hbLen (NewProofConfig 11) [9] (beNat (natBE ct0.toNat)) ((3 * 5 : ℕ) : ℤ) (35, 4, 9) = .ok () ∧
    (encEx [1, 2]).verify hbLen (NewProofConfig 11) [9] (beNat (natBE ct0.toNat)) ((3 * 5 : ℕ) : ℤ) (35, 4, 9) = .ok () ∧
    encChallenge hbLen (NewProofConfig 11) [9] (beNat (natBE ct0.toNat)) ((3 * 5 : ℕ) : ℤ) (35, 4, 9) (encEx [1]) ≠
      encChallenge hbLen (NewProofConfig 11) [9] (beNat (natBE ct0.toNat)) ((3 * 5 : ℕ) : ℤ) (35, 4, 9) (encEx [1, 2]) :=
  ⟨key15_ok, by decide +kernel, by decide +kernel, by decide +kernel, by decide +kernel, by decide +kernel⟩

/-- The empty ciphertext passes. -/
example : 2 ≤ encChallenge (hb 152) (NewProofConfig 11) [9] 0 15 (35, 4, 9) (crashMsg [1]) ∧
    encChallenge (hb 152) (NewProofConfig 11) [9] 0 15 (35, 4, 9) (crashMsg [1]) ≤ (NewProofConfig 11).curveN ∧
    (crashMsg [1]).verify (hb 152) (NewProofConfig 11) [9] 0 15 (35, 4, 9) = .ok () := by decide +kernel

/-- There are plaintexts that are no such fractions (group order 3, modulus 101·103). -/
example : ∃ m : ℕ, m < 101 * 103 ∧ ∀ u d, ¬ SmallFraction 3 (2 * 2 ^ (NewProofConfig 3).lAddEpsilon) (101 * 103) m u d := by
  by_contra hc
  push Not at hc
  have h := C106_few_fractions 3 128 101 103 (by norm_num) (by norm_num) (by norm_num) (by norm_num)
  have hs : {m : ℕ | m < 101 * 103 ∧ ∃ u d, SmallFraction (3 : ℕ) (128 : ℕ) (101 * 103) m u d} = ↑(Finset.range (101 * 103)) := by
    ext m
    simp only [Finset.coe_range, Set.mem_Iio]
    exact ⟨fun hm => hm.1, fun hm => ⟨hm, hc m hm⟩⟩
  rw [hs, Set.ncard_coe_finset, Finset.card_range] at h
  omega

end Tss.RangeProofs
