import Verif.Lemmas.AlicePaillier
import Verif.Props.Paillier
import Verif.Props.Factor
/-! C34: the Paillier scheme of crypto/alice/paillier, used by the signing proofs. -/
namespace Tss.AlicePaillier
open Tss Alice
open _root_.Tss.Paillier (GoodKey mkKey decrypt_char decrypt_form decrypt_ok_inv L exp_L pow_eq_one_pq)

/-! ### Specification -/

namespace spec

/-- A key for the distinct primes P, Q with gcd(PQ, (P−1)(Q−1)) = 1: modulus PQ, base 1 + PQ, λ = lcm(P−1, Q−1), and the
factor mu inverse to λ modulo PQ. -/
structure IsKey (k : Key) (P Q : Nat) : Prop where
  hP : P.Prime
  hQ : Q.Prime
  ne : P ≠ Q
  cop : Nat.gcd (P * Q) ((P - 1) * (Q - 1)) = 1
  n : k.pub.n = ((P * Q : ℕ) : Int)
  g : k.pub.g = 1 + ((P * Q : ℕ) : Int)
  nSquare : k.pub.nSquare = ((P * Q * (P * Q) : ℕ) : Int)
  p : k.priv.p = P
  q : k.priv.q = Q
  lambda : k.priv.lambda = (Nat.lcm (P - 1) (Q - 1) : ℕ)
  phi : k.priv.phiN = ((P - 1) * (Q - 1) : ℕ)
  mu : k.priv.mu * (Nat.lcm (P - 1) (Q - 1) : ℕ) ≡ 1 [ZMOD ((P * Q : ℕ) : Int)]

/-- A well-formed ciphertext: non-zero, below N², coprime to N. -/
def WellFormed (c N : Nat) : Prop := 1 ≤ c ∧ c < N * N ∧ Nat.Coprime c N

end spec
open spec

theorem spec.IsKey.good {k : Key} {P Q : Nat} (h : IsKey k P Q) : GoodKey P Q := ⟨h.hP, h.hQ, h.ne, h.cop⟩

theorem isCorrect_iff {k : PublicKey} {c N : Nat} (hn : k.n = (N : Int)) (hs : k.nSquare = ((N * N : ℕ) : Int)) :
    isCorrectCiphertext (c : Int) k = .ok () ↔ WellFormed c N := by
  unfold isCorrectCiphertext WellFormed
  rw [hn, hs]
  constructor
  · intro h
    obtain ⟨_, h1, h2⟩ := Res.bind_eq_ok.mp h
    rw [InRange_ok] at h1
    have h3 : IsRelativePrime (c : Int) (N : Int) = true := by
      by_contra h3
      rw [if_pos h3] at h2; simp at h2
    exact ⟨by omega, by exact_mod_cast h1.2, (Factor.relPrime_nat _ _).mp h3⟩
  · rintro ⟨h1, h2, h3⟩
    rw [InRange_ok.mpr ⟨by exact_mod_cast h1, by exact_mod_cast h2⟩, Res.bind_ok, if_neg]
    exact not_not.mpr ((Factor.relPrime_nat _ _).mpr h3)

theorem isCorrect_not_panic (c : Int) (k : PublicKey) : isCorrectCiphertext c k ≠ .panic := by
  unfold isCorrectCiphertext InRange
  split_ifs <;> simp [Res.bind]

/-- The two Paillier schemes decrypt alike. -/
theorem decrypt_bridge {k : Key} {P Q : Nat} (h : IsKey k P Q) {cb : Bytes} {m : Int}
    (hd : _root_.Tss.Paillier.Decrypt (mkKey P Q) (beNat cb : Int) = .ok m) : Decrypt k cb = .ok (intBytes m) := by
  have g := h.good
  obtain ⟨m, rfl, hm, -, c1, cu, -⟩ := decrypt_ok_inv g hd
  obtain ⟨m', hd', hm', hk⟩ := decrypt_char g (by omega : (0 : Int) ≤ (beNat cb : Int)) c1 cu
  rw [hd] at hd'
  obtain rfl : m = m' := by simpa using hd'
  have hone := g.one_lt
  have hcop : Nat.Coprime (beNat cb) (P * Q) := by
    have : Int.gcd ((beNat cb : ℕ) : Int) ((P * Q : ℕ) : Int) = Nat.gcd (beNat cb) (P * Q) := rfl
    rw [this] at cu; exact cu
  have wf : WellFormed (beNat cb) (P * Q) := by
    refine ⟨?_, by exact_mod_cast c1, hcop⟩
    by_contra h0
    have h0 : beNat cb = 0 := by omega
    rw [h0, Nat.coprime_zero_left] at hcop
    omega
  have fer : (((beNat cb : ℕ) : Int) : ZMod (P * Q)) ^ (Nat.lcm (P - 1) (Q - 1)) = 1 :=
    pow_eq_one_pq g.hP g.hQ g.ne cu (Nat.dvd_lcm_left _ _) (Nat.dvd_lcm_right _ _)
  obtain ⟨u, hu, hL⟩ := exp_L hone fer
  rw [_root_.Tss.Paillier.nSquare_nat] at hu
  unfold Decrypt
  simp only
  rw [(isCorrect_iff h.n h.nSquare).mpr wf, Res.bind_ok, h.lambda, h.nSquare, h.n, hu]
  simp only [deref, Res.bind_ok]
  have hmu := h.mu
  set n := P * Q with hn
  set l := Nat.lcm (P - 1) (Q - 1) with hl
  have hnn : NeZero (n * n) := ⟨(Nat.mul_pos (by omega) (by omega)).ne'⟩
  have hnz : NeZero n := ⟨by omega⟩
  have hu2 := hu
  rw [bigExp_some, pw_natCast] at hu2
  obtain ⟨-, u0, u1, ue⟩ := hu2
  have upos : 0 < u := by
    rcases lt_or_eq_of_le u0 with h0 | h0
    · exact h0
    exfalso
    rw [← h0] at ue
    have hunit : IsUnit (((beNat cb : ℕ) : Int) : ZMod (n * n)) := by
      obtain ⟨v, hv⟩ := exists_unit (gcd_sq.2 cu)
      rw [← hv]; exact v.isUnit
    have hz := hunit.pow l
    rw [← ue] at hz
    simp only [Int.cast_zero, isUnit_zero_iff] at hz
    have : Nontrivial (ZMod (n * n)) := ZMod.nontrivial_iff.mpr (by nlinarith)
    exact absurd hz (by simp)
  have hlf : lFunction u (n : Int) = .ok (L u n) := by
    unfold lFunction L
    rw [if_neg (by omega), if_neg (by omega)]
  rw [hlf, Res.bind_ok]
  congr 2
  have hnI : (n : Int) ≠ 0 := by omega
  have r0 := Int.emod_nonneg (L u n * k.priv.mu) hnI
  have r1 := Int.emod_lt_of_pos (L u n * k.priv.mu) (by omega : 0 < (n : ℤ))
  obtain ⟨j, hj⟩ := Int.eq_ofNat_of_zero_le r0
  rw [hj]
  have hjn : j < n := by omega
  have key := (hk j).mp (by
    rw [hL]
    have e1 : ((j * l : ℕ) : ZMod (n * n)) = (((j * l : ℕ) : ℤ) : ZMod (n * n)) := by push_cast; rfl
    rw [e1, _root_.Tss.Paillier.one_add_mul_inj (by omega)]
    push_cast
    have e2 : ((j : ℕ) : ZMod n) = (((j : ℕ) : Int) : ZMod n) := by simp
    rw [e2, ← hj, intCast_emod, Int.cast_mul, mul_assoc]
    have e3 : ((k.priv.mu : Int) : ZMod n) * ((l : ℕ) : ZMod n) = 1 := by
      have := (ZMod.intCast_eq_intCast_iff _ _ n).mpr hmu
      push_cast at this
      exact this
    rw [e3, mul_one])
  rw [Nat.mod_eq_of_lt hjn] at key
  rw [key]

/-- C34. Decryption answers exactly for the well-formed ciphertexts, with a plaintext below N; all other strings are refused with
an error, and none crashes. -/
theorem C34_decrypt_total (k : Key) (P Q : Nat) (h : IsKey k P Q) (cb : Bytes) :
    (WellFormed (beNat cb) (P * Q) ↔ ∃ m : Nat, m < P * Q ∧ Decrypt k cb = .ok (natBE m)) ∧
    (¬ WellFormed (beNat cb) (P * Q) ↔ ∃ e, Decrypt k cb = .err e) := by
  have g := h.good
  have fwd : WellFormed (beNat cb) (P * Q) → ∃ m : Nat, m < P * Q ∧ Decrypt k cb = .ok (natBE m) := by
    rintro ⟨_, h2, h3⟩
    obtain ⟨m, hd, hm, -⟩ := decrypt_char g (by omega : (0 : Int) ≤ (beNat cb : Int)) (by exact_mod_cast h2)
      (show Int.gcd ((beNat cb : ℕ) : Int) ((P * Q : ℕ) : Int) = 1 from h3)
    exact ⟨m, hm, decrypt_bridge h hd⟩
  have bwd : ¬ WellFormed (beNat cb) (P * Q) → ∃ e, Decrypt k cb = .err e := by
    intro hw
    unfold Decrypt
    simp only
    cases hc : isCorrectCiphertext (beNat cb : Int) k.pub with
    | ok u => exact absurd ((isCorrect_iff h.n h.nSquare).mp hc) hw
    | err e => exact ⟨e, rfl⟩
    | panic => exact absurd hc (isCorrect_not_panic _ _)
  refine ⟨⟨fwd, ?_⟩, ⟨bwd, ?_⟩⟩
  · rintro ⟨m, -, hm⟩
    by_contra hw
    obtain ⟨e, he⟩ := bwd hw
    rw [hm] at he; simp at he
  · rintro ⟨e, he⟩ hw
    obtain ⟨m, -, hm⟩ := fwd hw
    rw [hm] at he; simp at he

/-- C34. A plaintext of at least N is refused. -/
theorem C34_encrypt_rejects (pub : PublicKey) (mb tape : Bytes) (h : pub.n ≤ beNat mb) :
    Encrypt pub mb tape = .err .invalidMessage := by
  unfold Encrypt; simp only; rw [if_pos h]

/-- What encryption produces: (1+N)^m r^N modulo N² for a unit r. -/
theorem encrypt_form {k : Key} {P Q : Nat} (h : IsKey k P Q) {m : Nat} {tape rest : Bytes} {c r : Int}
    (he : EncryptWithOutputSalt k.pub m tape = .ok (c, r, rest)) :
    0 ≤ c ∧ c < ((P * Q * (P * Q) : ℕ) : Int) ∧ Int.gcd r ((P * Q : ℕ) : Int) = 1 ∧ 2 ≤ r ∧ r < ((P * Q : ℕ) : Int) ∧
    (c : ZMod (P * Q * (P * Q))) = (1 + ((P * Q : ℕ) : ZMod (P * Q * (P * Q)))) ^ m * (r : ZMod (P * Q * (P * Q))) ^ (P * Q) := by
  have hpos : 0 < P * Q * (P * Q) := Nat.mul_pos h.good.pos h.good.pos
  have hnz : NeZero (P * Q * (P * Q)) := ⟨hpos.ne'⟩
  unfold EncryptWithOutputSalt at he
  rw [h.n, h.g, h.nSquare] at he
  generalize hN : P * Q = N at *
  obtain ⟨⟨r', rest'⟩, h1, he⟩ := Res.bind_eq_ok.mp he
  obtain ⟨gm, h2, he⟩ := Res.bind_eq_ok.mp he
  obtain ⟨rn, h3, he⟩ := Res.bind_eq_ok.mp he
  rw [if_neg (by omega)] at he
  simp only [Res.ok.injEq, Prod.mk.injEq] at he
  obtain ⟨rfl, rfl, rfl⟩ := he
  obtain ⟨-, r2, rn', rc⟩ := RandomCoprimeInt_range h1
  rw [deref_ok, bigExp_some, pw_natCast] at h2 h3
  refine ⟨Int.emod_nonneg _ (by omega), Int.emod_lt_of_pos _ (by omega), rc, r2, rn', ?_⟩
  rw [intCast_emod, Int.cast_mul, h2.2.2.2, h3.2.2.2]
  push_cast
  rfl

/-- C34. Decrypting what encryption returned gives the plaintext back (with leading zero bytes dropped), whatever the
randomness; the ciphertext is well-formed. -/
theorem C34_decrypt_encrypt (k : Key) (P Q : Nat) (h : IsKey k P Q) (mb tape cb rest : Bytes)
    (he : Encrypt k.pub mb tape = .ok (cb, rest)) :
    beNat mb < P * Q ∧ WellFormed (beNat cb) (P * Q) ∧ Decrypt k cb = .ok (natBE (beNat mb)) := by
  unfold Encrypt at he
  simp only at he
  split at he
  · simp at he
  next hm =>
  rw [h.n] at hm
  obtain ⟨⟨c, r, rest'⟩, h1, he⟩ := Res.bind_eq_ok.mp he
  simp only [Res.ok.injEq, Prod.mk.injEq] at he
  obtain ⟨rfl, rfl⟩ := he
  obtain ⟨c0, c1, rc, -, -, cf⟩ := encrypt_form h h1
  have hd := decrypt_form h.good c0 c1 rc cf
  have hlt : beNat mb < P * Q := by omega
  rw [Nat.mod_eq_of_lt hlt] at hd
  have ec : ((beNat (intBytes c) : ℕ) : Int) = c := by rw [beNat_intBytes]; omega
  rw [← ec] at hd
  have hb := decrypt_bridge h hd
  have : intBytes ((beNat mb : ℕ) : Int) = natBE (beNat mb) := by simp [intBytes]
  rw [this] at hb
  exact ⟨hlt, (C34_decrypt_total k P Q h _).1.mpr ⟨_, hlt, hb⟩, hb⟩

/-- Multiplying by the N-th power of a unit does not change the plaintext. -/
theorem rerandomize {P Q : Nat} (g : GoodKey P Q) {c r rn a : Int} (hr : Int.gcd r ((P * Q : ℕ) : Int) = 1)
    (hrn : bigExp r ((P * Q : ℕ) : Int) ((P * Q * (P * Q) : ℕ) : Int) = some rn)
    (hd : _root_.Tss.Paillier.Decrypt (mkKey P Q) c = .ok a) :
    _root_.Tss.Paillier.Decrypt (mkKey P Q) (c * rn % ((P * Q * (P * Q) : ℕ) : Int)) = .ok a := by
  have hpos : 0 < P * Q * (P * Q) := Nat.mul_pos g.pos g.pos
  have hnz : NeZero (P * Q * (P * Q)) := ⟨hpos.ne'⟩
  have h2 := hrn
  rw [bigExp_some, pw_natCast] at h2
  obtain ⟨-, n0, n1, ne⟩ := h2
  have h0 := decrypt_form g (m := 0) n0 n1 hr (by rw [pow_zero, one_mul]; exact ne)
  rw [Nat.zero_mod] at h0
  obtain ⟨c', h3, h4⟩ := _root_.Tss.Paillier.C31_homoAdd P Q g.hP g.hQ g.ne g.cop c rn a _ hd h0
  obtain ⟨m, rfl, hm, c0, c1, -, -⟩ := decrypt_ok_inv g hd
  have e1 : c' = c * rn % ((P * Q * (P * Q) : ℕ) : Int) := by
    unfold _root_.Tss.Paillier.HomoAdd at h3
    rw [_root_.Tss.Paillier.mkKey_N, _root_.Tss.Paillier.nSquare_nat, if_neg (by omega), if_neg (by omega)] at h3
    simp only [Common.modMul] at h3
    rw [if_neg (by omega)] at h3
    simp only [Res.ok.injEq] at h3
    exact h3.symm
  rw [← e1, h4]
  congr 1
  have e2 : (P * Q : Int) = ((P * Q : ℕ) : Int) := by push_cast; ring
  rw [e2]
  simp only [Nat.cast_zero, add_zero]
  exact Int.emod_eq_of_lt (by omega) (by exact_mod_cast hm)

/-- The converse reading of decryption. -/
theorem decrypt_inv {k : Key} {P Q : Nat} (h : IsKey k P Q) {cb : Bytes} {a : Nat} (hd : Decrypt k cb = .ok (natBE a)) :
    WellFormed (beNat cb) (P * Q) ∧ _root_.Tss.Paillier.Decrypt (mkKey P Q) (beNat cb : Int) = .ok (a : Int) := by
  have wf : WellFormed (beNat cb) (P * Q) := by
    by_contra hw
    obtain ⟨e, he⟩ := (C34_decrypt_total k P Q h cb).2.mp hw
    rw [hd] at he; simp at he
  refine ⟨wf, ?_⟩
  obtain ⟨-, h2, h3⟩ := wf
  obtain ⟨m, hm, -, -⟩ := decrypt_char h.good (by omega : (0 : Int) ≤ (beNat cb : Int)) (by exact_mod_cast h2)
      (show Int.gcd ((beNat cb : ℕ) : Int) ((P * Q : ℕ) : Int) = 1 from h3)
  have := decrypt_bridge h hm
  rw [hd] at this
  simp only [Res.ok.injEq] at this
  have e := congrArg beNat this
  rw [beNat_natBE, beNat_intBytes, Int.natAbs_natCast] at e
  rw [hm, e]

/-- C34. Adding two ciphertexts (any decryptable ones) adds the plaintexts modulo N, whatever the new randomness. -/
theorem C34_add (k : Key) (P Q : Nat) (h : IsKey k P Q) (c1 c2 tape cb rest : Bytes) (a b : Nat)
    (h1 : Decrypt k c1 = .ok (natBE a)) (h2 : Decrypt k c2 = .ok (natBE b)) (hadd : Add k.pub c1 c2 tape = .ok (cb, rest)) :
    Decrypt k cb = .ok (natBE ((a + b) % (P * Q))) := by
  have g := h.good
  have hpos : 0 < P * Q * (P * Q) := Nat.mul_pos g.pos g.pos
  obtain ⟨w1, d1⟩ := decrypt_inv h h1
  obtain ⟨w2, d2⟩ := decrypt_inv h h2
  unfold Add at hadd
  simp only at hadd
  rw [(isCorrect_iff h.n h.nSquare).mpr w1, Res.bind_ok, (isCorrect_iff h.n h.nSquare).mpr w2, Res.bind_ok, h.n, h.nSquare] at hadd
  obtain ⟨⟨r, rest'⟩, hr, hadd⟩ := Res.bind_eq_ok.mp hadd
  obtain ⟨rn, hrn, hadd⟩ := Res.bind_eq_ok.mp hadd
  simp only [Res.ok.injEq, Prod.mk.injEq] at hadd
  obtain ⟨rfl, rfl⟩ := hadd
  obtain ⟨-, -, -, rc⟩ := RandomCoprimeInt_range hr
  rw [deref_ok] at hrn
  obtain ⟨c', h3, h4⟩ := _root_.Tss.Paillier.C31_homoAdd P Q g.hP g.hQ g.ne g.cop _ _ _ _ d1 d2
  have e1 : c' = (beNat c1 : Int) * beNat c2 % ((P * Q * (P * Q) : ℕ) : Int) := by
    unfold _root_.Tss.Paillier.HomoAdd at h3
    have := w1.2.1; have := w2.2.1
    rw [_root_.Tss.Paillier.mkKey_N, _root_.Tss.Paillier.nSquare_nat, if_neg (by omega), if_neg (by omega)] at h3
    simp only [Common.modMul] at h3
    rw [if_neg (by omega)] at h3
    simp only [Res.ok.injEq] at h3
    exact h3.symm
  rw [e1] at h4
  have h5 := rerandomize g rc hrn h4
  have hc0 := Int.emod_nonneg ((beNat c1 : Int) * beNat c2 % ((P * Q * (P * Q) : ℕ) : Int) * rn)
    (by omega : ((P * Q * (P * Q) : ℕ) : Int) ≠ 0)
  generalize (beNat c1 : Int) * beNat c2 % ((P * Q * (P * Q) : ℕ) : Int) * rn % ((P * Q * (P * Q) : ℕ) : Int) = c at *
  have ec : ((beNat (intBytes c) : ℕ) : Int) = c := by rw [beNat_intBytes]; omega
  rw [← ec] at h5
  rw [decrypt_bridge h h5]
  have e3 : ((a : Int) + b) % (P * Q : Int) = (((a + b) % (P * Q) : ℕ) : Int) := by push_cast; rfl
  rw [e3]
  unfold intBytes
  rw [Int.natAbs_natCast]

/-- C34. Multiplying a decryptable ciphertext by any integer, negative ones included, multiplies the plaintext modulo N. -/
theorem C34_mulConst (k : Key) (P Q : Nat) (h : IsKey k P Q) (c1 tape cb rest : Bytes) (a : Nat) (s : Int)
    (h1 : Decrypt k c1 = .ok (natBE a)) (hmul : MulConst k.pub c1 s tape = .ok (cb, rest)) :
    Decrypt k cb = .ok (natBE ((s * a) % ((P * Q : ℕ) : Int)).toNat) := by
  have g := h.good
  have hpos : 0 < P * Q * (P * Q) := Nat.mul_pos g.pos g.pos
  have hone := g.one_lt
  obtain ⟨w1, d1⟩ := decrypt_inv h h1
  unfold MulConst at hmul
  simp only at hmul
  rw [(isCorrect_iff h.n h.nSquare).mpr w1, Res.bind_ok, h.n, h.nSquare] at hmul
  obtain ⟨pw1, hpw, hmul⟩ := Res.bind_eq_ok.mp hmul
  obtain ⟨⟨r, rest'⟩, hr, hmul⟩ := Res.bind_eq_ok.mp hmul
  obtain ⟨rn, hrn, hmul⟩ := Res.bind_eq_ok.mp hmul
  simp only [Res.ok.injEq, Prod.mk.injEq] at hmul
  obtain ⟨rfl, rfl⟩ := hmul
  obtain ⟨-, -, -, rc⟩ := RandomCoprimeInt_range hr
  rw [deref_ok] at hrn hpw
  have s0 := Int.emod_nonneg s (by omega : ((P * Q : ℕ) : Int) ≠ 0)
  have s1 := Int.emod_lt_of_pos s (by omega : (0 : Int) < ((P * Q : ℕ) : Int))
  have e2 : (P * Q : Int) = ((P * Q : ℕ) : Int) := by push_cast; ring
  obtain ⟨c', h3, h4⟩ := _root_.Tss.Paillier.C31_homoMult P Q g.hP g.hQ g.ne g.cop (s % ((P * Q : ℕ) : Int)) _ _ s0
    (by rw [e2]; exact s1) d1
  have e1 : c' = pw1 := by
    unfold _root_.Tss.Paillier.HomoMult Common.modExp at h3
    have := w1.2.1
    rw [_root_.Tss.Paillier.mkKey_N, _root_.Tss.Paillier.nSquare_nat, if_neg (by omega), if_neg (by omega), hpw] at h3
    simpa using h3.symm
  rw [e1] at h4
  have h5 := rerandomize g rc hrn h4
  have hc0 := Int.emod_nonneg (pw1 * rn) (by omega : ((P * Q * (P * Q) : ℕ) : Int) ≠ 0)
  generalize pw1 * rn % ((P * Q * (P * Q) : ℕ) : Int) = c at *
  have ec : ((beNat (intBytes c) : ℕ) : Int) = c := by rw [beNat_intBytes]; omega
  rw [← ec] at h5
  rw [decrypt_bridge h h5, e2, Int.mul_emod, Int.emod_emod, ← Int.mul_emod]
  have r0 := Int.emod_nonneg (s * a) (by omega : ((P * Q : ℕ) : Int) ≠ 0)
  congr 1
  unfold intBytes
  congr 1
  omega

/-- C34. Both homomorphic operations refuse every malformed ciphertext. -/
theorem C34_operations_reject (k : Key) (P Q : Nat) (h : IsKey k P Q) (c1 c2 tape : Bytes) (s : Int) :
    (¬ (WellFormed (beNat c1) (P * Q) ∧ WellFormed (beNat c2) (P * Q)) → ∃ e, Add k.pub c1 c2 tape = .err e) ∧
    (¬ WellFormed (beNat c1) (P * Q) → ∃ e, MulConst k.pub c1 s tape = .err e) := by
  have rej : ∀ cb, ¬ WellFormed (beNat cb) (P * Q) → ∃ e, isCorrectCiphertext (beNat cb : Int) k.pub = .err e := by
    intro cb hw
    cases hc : isCorrectCiphertext (beNat cb : Int) k.pub with
    | ok u => exact absurd ((isCorrect_iff h.n h.nSquare).mp hc) hw
    | err e => exact ⟨e, rfl⟩
    | panic => exact absurd hc (isCorrect_not_panic _ _)
  constructor
  · intro hw
    unfold Add
    simp only
    by_cases w1 : WellFormed (beNat c1) (P * Q)
    · obtain ⟨e, he⟩ := rej c2 (fun w2 => hw ⟨w1, w2⟩)
      rw [(isCorrect_iff h.n h.nSquare).mpr w1, Res.bind_ok, he]
      exact ⟨e, rfl⟩
    · obtain ⟨e, he⟩ := rej c1 w1
      rw [he]; exact ⟨e, rfl⟩
  · intro hw
    obtain ⟨e, he⟩ := rej c1 hw
    unfold MulConst
    simp only
    rw [he]; exact ⟨e, rfl⟩

/-! ### Key generation -/

theorem generatePrime_ok {draw : Nat → Res AErr Int} : ∀ (k i : Nat) {p q : Int} {j : Nat},
    generatePrime draw k i = .ok (p, q, j) → p ≠ q ∧ ∃ a b, draw a = .ok p ∧ draw b = .ok q
  | 0, i, p, q, j, h => by simp [generatePrime] at h
  | k + 1, i, p, q, j, h => by
    unfold generatePrime at h
    obtain ⟨p', h1, h⟩ := Res.bind_eq_ok.mp h
    obtain ⟨q', h2, h⟩ := Res.bind_eq_ok.mp h
    split at h
    · exact generatePrime_ok k _ h
    · next hne =>
      simp only [Res.ok.injEq, Prod.mk.injEq] at h
      obtain ⟨rfl, rfl, -⟩ := h
      exact ⟨hne, _, _, h1, h2⟩

theorem getNAndLambda_ok {draw : Nat → Res AErr Int} : ∀ (k i : Nat) {p q n l m : Int},
    getNAndLambda draw k i = .ok (p, q, n, l, m) → p ≠ q ∧ (∃ a b, draw a = .ok p ∧ draw b = .ok q) ∧ n = p * q ∧
      m = (p - 1) * (q - 1) ∧ IsRelativePrime n m = true ∧ Lcm (p - 1) (q - 1) = .ok l
  | 0, i, p, q, n, l, m, h => by simp [getNAndLambda] at h
  | k + 1, i, p, q, n, l, m, h => by
    unfold getNAndLambda at h
    obtain ⟨⟨p', q', i'⟩, h1, h⟩ := Res.bind_eq_ok.mp h
    obtain ⟨g1, g2⟩ := generatePrime_ok _ _ h1
    simp only at h
    split at h
    · next hr =>
      cases hl : Lcm (p' - 1) (q' - 1) with
      | ok l' =>
        rw [hl] at h
        simp only [Res.ok.injEq, Prod.mk.injEq] at h
        obtain ⟨rfl, rfl, rfl, rfl, rfl⟩ := h
        exact ⟨g1, g2, rfl, rfl, hr, hl⟩
      | err e => rw [hl] at h; exact getNAndLambda_ok k _ h
      | panic => rw [hl] at h; exact getNAndLambda_ok k _ h
    · exact getNAndLambda_ok k _ h

theorem getGAndMu_ok {l n : Int} : ∀ (k : Nat) {g mu : Int}, getGAndMuWithSpecialG l n k = .ok (g, mu) →
    g = 1 + n ∧ ∃ x u, bigExp (1 + n) l (n * n) = some x ∧ lFunction x n = .ok u ∧ modInverse u n = some mu
  | 0, g, mu, h => by simp [getGAndMuWithSpecialG] at h
  | k + 1, g, mu, h => by
    unfold getGAndMuWithSpecialG at h
    simp only at h
    obtain ⟨x, h1, h⟩ := Res.bind_eq_ok.mp h
    obtain ⟨u, h2, h⟩ := Res.bind_eq_ok.mp h
    cases hm : modInverse u n with
    | some mu' =>
      rw [hm] at h
      simp only [Res.ok.injEq, Prod.mk.injEq] at h
      obtain ⟨rfl, rfl⟩ := h
      exact ⟨rfl, x, u, deref_ok.mp h1, h2, hm⟩
    | none => rw [hm] at h; exact getGAndMu_ok k h

theorem generatePrime_first {draw : Nat → Res AErr Int} : ∀ (k c : Nat) {p q : Int} {j : Nat},
    generatePrime draw k (2 * c) = .ok (p, q, j) → p ≠ q ∧ ∃ m, c ≤ m ∧ j = 2 * (m + 1) ∧ draw (2 * m) = .ok p ∧
      draw (2 * m + 1) = .ok q ∧ ∀ l, c ≤ l → l < m → ∃ p, draw (2 * l) = .ok p ∧ draw (2 * l + 1) = .ok p
  | 0, c, p, q, j, h => by simp [generatePrime] at h
  | k + 1, c, p, q, j, h => by
    unfold generatePrime at h
    obtain ⟨p', h1, h⟩ := Res.bind_eq_ok.mp h
    obtain ⟨q', h2, h⟩ := Res.bind_eq_ok.mp h
    split at h
    · next he =>
      rw [show 2 * c + 2 = 2 * (c + 1) by ring] at h
      obtain ⟨g1, m, g2, g3, g4, g5, g6⟩ := generatePrime_first k _ h
      refine ⟨g1, m, by omega, g3, g4, g5, fun l hl hlm => ?_⟩
      by_cases hlc : l = c
      · subst hlc; exact ⟨p', h1, by rw [h2, he]⟩
      · exact g6 l (by omega) hlm
    · next hne =>
      simp only [Res.ok.injEq, Prod.mk.injEq] at h
      obtain ⟨rfl, rfl, rfl⟩ := h
      exact ⟨hne, c, le_refl _, by ring, h1, h2, fun l hl hlm => by omega⟩

theorem getNAndLambda_first {draw : Nat → Res AErr Int} (hprime : ∀ i p, draw i = .ok p → ∃ q : Nat, q.Prime ∧ p = q) :
    ∀ (k c : Nat) {p q n l f : Int}, getNAndLambda draw k (2 * c) = .ok (p, q, n, l, f) →
      ∃ m, c ≤ m ∧ draw (2 * m) = .ok p ∧ draw (2 * m + 1) = .ok q ∧
        ∀ l, c ≤ l → l < m → ∃ p q, draw (2 * l) = .ok p ∧ draw (2 * l + 1) = .ok q ∧
          (p = q ∨ Int.gcd (p * q) ((p - 1) * (q - 1)) ≠ 1)
  | 0, c, p, q, n, l, f, h => by simp [getNAndLambda] at h
  | k + 1, c, p, q, n, l, f, h => by
    unfold getNAndLambda at h
    obtain ⟨⟨p', q', i'⟩, h1, h⟩ := Res.bind_eq_ok.mp h
    obtain ⟨g1, m, g2, g3, g4, g5, g6⟩ := generatePrime_first _ _ h1
    simp only at h
    split at h
    · next hr =>
      obtain ⟨P, hP, rfl⟩ := hprime _ _ g4
      obtain ⟨Q, hQ, rfl⟩ := hprime _ _ g5
      have hP1 := hP.one_lt
      have hQ1 := hQ.one_lt
      have hl : ∃ l', Lcm ((P : Int) - 1) ((Q : Int) - 1) = .ok l' := by
        unfold Lcm Gcd
        rw [if_neg (by omega), if_neg (by omega)]
        exact ⟨_, rfl⟩
      obtain ⟨l', hl⟩ := hl
      rw [hl] at h
      simp only [Res.ok.injEq, Prod.mk.injEq] at h
      obtain ⟨rfl, rfl, -⟩ := h
      refine ⟨m, g2, g4, g5, fun l hl hlm => ?_⟩
      obtain ⟨p, hp, hp'⟩ := g6 l hl hlm
      exact ⟨p, p, hp, hp', Or.inl rfl⟩
    · next hr =>
      rw [IsRelativePrime_iff] at hr
      rw [g3] at h
      obtain ⟨m', a1, a2, a3, a4⟩ := getNAndLambda_first hprime k _ h
      refine ⟨m', by omega, a2, a3, fun l hl hlm => ?_⟩
      rcases Nat.lt_trichotomy l m with hlt | rfl | hgt
      · obtain ⟨p, hp, hp'⟩ := g6 l hl hlt
        exact ⟨p, p, hp, hp', Or.inl rfl⟩
      · exact ⟨p', q', g4, g5, Or.inr hr⟩
      · exact a4 l (by omega) hlm

/-- C34. The primes of a generated key are a fresh pair: the generator's draws are used up two at a time, the key is made from
the first pair that is acceptable (two different primes, with `p·q` coprime to `(p-1)(q-1)`), and no prime of a rejected
pair is used again. -/
theorem C34_primes_fresh (Hb : Bytes → Bytes) (draw : Nat → Res AErr Int) (salts : Nat → Nat → Bytes) (tape : Bytes) (k : Key)
    (hprime : ∀ i p, draw i = .ok p → ∃ q : Nat, q.Prime ∧ p = q) (h : NewPaillierUnSafe Hb draw salts tape = .ok k) :
    ∃ m, draw (2 * m) = .ok k.priv.p ∧ draw (2 * m + 1) = .ok k.priv.q ∧ k.priv.p ≠ k.priv.q ∧
      Int.gcd (k.priv.p * k.priv.q) ((k.priv.p - 1) * (k.priv.q - 1)) = 1 ∧
      ∀ l, l < m → ∃ p q, draw (2 * l) = .ok p ∧ draw (2 * l + 1) = .ok q ∧
        (p = q ∨ Int.gcd (p * q) ((p - 1) * (q - 1)) ≠ 1) := by
  unfold NewPaillierUnSafe at h
  obtain ⟨⟨p, q, n, l, phi⟩, h1, h⟩ := Res.bind_eq_ok.mp h
  obtain ⟨⟨g, mu⟩, h2, h⟩ := Res.bind_eq_ok.mp h
  obtain ⟨⟨msg, rest⟩, h3, h⟩ := Res.bind_eq_ok.mp h
  obtain ⟨pub, h4, h⟩ := Res.bind_eq_ok.mp h
  simp only [Res.ok.injEq] at h
  subst h
  obtain ⟨hne, -, rfl, rfl, hrel, -⟩ := getNAndLambda_ok _ _ h1
  obtain ⟨m, -, a1, a2, a3⟩ := getNAndLambda_first hprime 100 0 h1
  exact ⟨m, a1, a2, hne, IsRelativePrime_iff.mp hrel, fun l hl => a3 l (by omega) hl⟩

/-- C34. A key that generation returns, from a generator delivering primes, is a key in the sense above, of at least 2048 bits,
whose modulus comes with an accepted factorization proof: so all the statements of C34 apply to it. -/
theorem C34_generated (Hb : Bytes → Bytes) (draw : Nat → Res AErr Int) (salts : Nat → Nat → Bytes) (tape : Bytes) (k : Key)
    (hprime : ∀ i p, draw i = .ok p → ∃ q : Nat, q.Prime ∧ p = q)
    (h : NewPaillierUnSafe Hb draw salts tape = .ok k) :
    ∃ P Q : Nat, IsKey k P Q ∧ 2048 ≤ bitLen k.pub.n := by
  unfold NewPaillierUnSafe at h
  obtain ⟨⟨p, q, n, l, phi⟩, h1, h⟩ := Res.bind_eq_ok.mp h
  obtain ⟨⟨g, mu⟩, h2, h⟩ := Res.bind_eq_ok.mp h
  obtain ⟨⟨msg, rest⟩, h3, h⟩ := Res.bind_eq_ok.mp h
  obtain ⟨pub, h4, h⟩ := Res.bind_eq_ok.mp h
  simp only [Res.ok.injEq] at h
  obtain ⟨hne, ⟨a, b, ha, hb⟩, rfl, rfl, hrel, hl⟩ := getNAndLambda_ok _ _ h1
  obtain ⟨P, hP, rfl⟩ := hprime _ _ ha
  obtain ⟨Q, hQ, rfl⟩ := hprime _ _ hb
  have hP1 := hP.one_lt
  have hQ1 := hQ.one_lt
  have hPQ : P ≠ Q := fun e => hne (by rw [e])
  have eP : (P : Int) - 1 = ((P - 1 : ℕ) : Int) := by omega
  have eQ : (Q : Int) - 1 = ((Q - 1 : ℕ) : Int) := by omega
  have eN : (P : Int) * Q = ((P * Q : ℕ) : Int) := by push_cast; rfl
  have eF : ((P : Int) - 1) * (Q - 1) = (((P - 1) * (Q - 1) : ℕ) : Int) := by rw [eP, eQ]; push_cast; rfl
  have hcop : Nat.gcd (P * Q) ((P - 1) * (Q - 1)) = 1 := by
    rw [eN, eF, Factor.relPrime_nat] at hrel; exact hrel
  have g' : GoodKey P Q := ⟨hP, hQ, hPQ, hcop⟩
  have hone := g'.one_lt
  have el : l = ((Nat.lcm (P - 1) (Q - 1) : ℕ) : Int) := by
    unfold Lcm Gcd at hl
    rw [if_neg (by omega), if_neg (by omega)] at hl
    simp only [Res.ok.injEq] at hl
    rw [← hl, eP, eQ]
    rw [show Int.gcd ((P - 1 : ℕ) : Int) ((Q - 1 : ℕ) : Int) = Nat.gcd (P - 1) (Q - 1) from rfl]
    norm_cast
    unfold Nat.lcm
    rw [Nat.div_mul_right_comm (Nat.gcd_dvd_left _ _)]
  subst el
  obtain ⟨rfl, x, u, hx, hu, hmu⟩ := getGAndMu_ok _ h2
  -- the public key
  have hv := Factor.C44_returned_verifies Hb _ (P * Q) salts tape rest msg (by rw [← eN]; exact h3)
  obtain ⟨hbits, hpk, hver⟩ := hv
  unfold ToPubkey at h4
  simp only at h4
  rw [hver, Res.bind_ok, hpk] at h4
  rw [if_neg (by omega)] at h4
  obtain ⟨_, h5, h4⟩ := Res.bind_eq_ok.mp h4
  split at h4
  · simp at h4
  simp only [Res.ok.injEq] at h4
  have eg : ((beNat (intBytes (1 + (P : Int) * Q)) : ℕ) : Int) = 1 + ((P * Q : ℕ) : Int) := by
    rw [beNat_intBytes, eN]; omega
  rw [eg] at h4
  subst h4
  subst h
  refine ⟨P, Q, ⟨hP, hQ, hPQ, hcop, rfl, rfl, by push_cast; ring, rfl, rfl, rfl, by rw [eF], ?_⟩, hbits⟩
  -- mu inverts λ
  show mu * ((Nat.lcm (P - 1) (Q - 1) : ℕ) : Int) ≡ 1 [ZMOD ((P * Q : ℕ) : Int)]
  rw [eN] at hx hu hmu
  have hx' : bigExp (1 + ((P * Q : ℕ) : Int)) ((Nat.lcm (P - 1) (Q - 1) : ℕ) : Int) ((P * Q * (P * Q) : ℕ) : Int) = some x := by
    rw [← hx]; push_cast; rfl
  have fer : (((1 + ((P * Q : ℕ) : Int) : Int)) : ZMod (P * Q)) ^ (Nat.lcm (P - 1) (Q - 1)) = 1 := by
    rw [Int.cast_add, Int.cast_one, Int.cast_natCast, ZMod.natCast_self, add_zero, one_pow]
  obtain ⟨x', hx'', hL⟩ := exp_L hone fer
  rw [_root_.Tss.Paillier.nSquare_nat, hx'] at hx''
  obtain rfl : x = x' := by simpa using hx''
  have eu : u = L x ((P * Q : ℕ) : Int) := by
    unfold lFunction at hu
    split at hu
    · simp at hu
    split at hu
    · simp at hu
    · simpa [L] using hu.symm
  generalize hl' : Nat.lcm (P - 1) (Q - 1) = l at *
  generalize P * Q = n at *
  have hnz : NeZero n := ⟨by omega⟩
  have e1 : (u : ZMod n) = ((l : Int) : ZMod n) := by
    rw [eu, ← _root_.Tss.Paillier.one_add_mul_inj (by omega), ← hL]
    push_cast
    rw [_root_.Tss.Paillier.one_add_pow_sq]
  rw [← ZMod.intCast_eq_intCast_iff]
  have hc := modInverse_spec (by omega : (n : Int) ≠ 0) hmu
  have h6 : ((u * mu : ℤ) : ZMod n) = ((1 : ℤ) : ZMod n) := by
    rw [ZMod.intCast_eq_intCast_iff]
    exact hc.2.2
  rw [Int.cast_mul, e1, mul_comm] at h6
  rw [Int.cast_mul]
  exact h6

/-- The factor mu of a good key exists. -/
theorem getGAndMu_good {P Q : Nat} (g : GoodKey P Q) (k : Nat) :
    ∃ mu, getGAndMuWithSpecialG ((Nat.lcm (P - 1) (Q - 1) : ℕ) : Int) ((P * Q : ℕ) : Int) (k + 1) =
      .ok (1 + ((P * Q : ℕ) : Int), mu) := by
  have hone := g.one_lt
  have hlc := g.lambda_coprime
  have fer : (((1 + ((P * Q : ℕ) : Int) : Int)) : ZMod (P * Q)) ^ (Nat.lcm (P - 1) (Q - 1)) = 1 := by
    rw [Int.cast_add, Int.cast_one, Int.cast_natCast, ZMod.natCast_self, add_zero, one_pow]
  generalize Nat.lcm (P - 1) (Q - 1) = l at *
  generalize P * Q = n at *
  have hnn : NeZero (n * n) := ⟨(Nat.mul_pos (by omega) (by omega)).ne'⟩
  have hnz : NeZero n := ⟨by omega⟩
  obtain ⟨x, hx, hL⟩ := exp_L hone fer
  rw [_root_.Tss.Paillier.nSquare_nat] at hx
  have e1 : ((L x n : Int) : ZMod n) = ((l : Int) : ZMod n) := by
    rw [← _root_.Tss.Paillier.one_add_mul_inj (by omega), ← hL]
    push_cast
    rw [_root_.Tss.Paillier.one_add_pow_sq]
  have hunit : IsUnit ((L x n : Int) : ZMod n) := by
    rw [e1]; simpa using (ZMod.isUnit_iff_coprime l n).2 hlc
  have hx2 := hx
  rw [bigExp_some, pw_natCast] at hx2
  obtain ⟨-, x0, x1, xe⟩ := hx2
  have xpos : 0 < x := by
    rcases lt_or_eq_of_le x0 with h0 | h0
    · exact h0
    exfalso
    rw [← h0] at xe
    obtain ⟨v, hv⟩ := exists_unit (gcd_one_add n)
    rw [← hv] at xe
    have hz := v.isUnit.pow l
    rw [← xe] at hz
    simp only [Int.cast_zero, isUnit_zero_iff] at hz
    have : Nontrivial (ZMod (n * n)) := ZMod.nontrivial_iff.mpr (by nlinarith)
    exact absurd hz (by simp)
  have hlf : lFunction x (n : Int) = .ok (L x n) := by
    unfold lFunction L
    rw [if_neg (by omega), if_neg (by omega)]
  have hg := gcd_of_unit hunit
  unfold getGAndMuWithSpecialG
  simp only
  have en : (n : Int) * n = ((n * n : ℕ) : Int) := by push_cast; rfl
  rw [en, hx]
  simp only [deref, Res.bind_ok, hlf]
  cases hm : modInverse (L x n) n with
  | none => rw [modInverse_eq_none] at hm; exact absurd hg hm
  | some mu => exact ⟨mu, rfl⟩

/-- C34. Generation succeeds as soon as the first two numbers delivered are distinct primes with gcd(PQ, (P−1)(Q−1)) = 1 and the
factorization prover succeeds. -/
theorem C34_generation_succeeds (Hb : Bytes → Bytes) (draw : Nat → Res AErr Int) (salts : Nat → Nat → Bytes) (tape : Bytes) (P Q : Nat)
    (h0 : draw 0 = .ok (P : Int)) (h1 : draw 1 = .ok (Q : Int)) (hP : P.Prime) (hQ : Q.Prime) (hne : P ≠ Q)
    (hcop : Nat.gcd (P * Q) ((P - 1) * (Q - 1)) = 1) (msg : Factor.Msg) (rest : Bytes)
    (hnew : Factor.New Hb [(P : Int), (Q : Int)] ((P * Q : ℕ) : Int) salts tape = .ok (msg, rest)) :
    ∃ k, NewPaillierUnSafe Hb draw salts tape = .ok k ∧ k.priv.p = P ∧ k.priv.q = Q := by
  have g : GoodKey P Q := ⟨hP, hQ, hne, hcop⟩
  have hP1 := hP.one_lt
  have hQ1 := hQ.one_lt
  have hone := g.one_lt
  have eP : (P : Int) - 1 = ((P - 1 : ℕ) : Int) := by omega
  have eQ : (Q : Int) - 1 = ((Q - 1 : ℕ) : Int) := by omega
  have eN : (P : Int) * Q = ((P * Q : ℕ) : Int) := by push_cast; rfl
  have eF : ((P : Int) - 1) * (Q - 1) = (((P - 1) * (Q - 1) : ℕ) : Int) := by rw [eP, eQ]; push_cast; rfl
  have hrel : IsRelativePrime ((P : Int) * Q) (((P : Int) - 1) * (Q - 1)) = true := by
    rw [eN, eF, Factor.relPrime_nat]; exact hcop
  have hl : Lcm ((P : Int) - 1) ((Q : Int) - 1) = .ok ((Nat.lcm (P - 1) (Q - 1) : ℕ) : Int) := by
    unfold Lcm Gcd
    rw [if_neg (by omega), if_neg (by omega), eP, eQ]
    rw [show Int.gcd ((P - 1 : ℕ) : Int) ((Q - 1 : ℕ) : Int) = Nat.gcd (P - 1) (Q - 1) from rfl]
    norm_cast
    unfold Nat.lcm
    rw [Nat.div_mul_right_comm (Nat.gcd_dvd_left _ _)]
  have hgp : generatePrime draw 100 0 = .ok ((P : Int), (Q : Int), 2) := by
    show generatePrime draw (99 + 1) 0 = _
    unfold generatePrime
    rw [h0, Res.bind_ok, h1, Res.bind_ok, if_neg (by exact_mod_cast hne)]
  have hgn : getNAndLambda draw 100 0 = .ok ((P : Int), (Q : Int), (P : Int) * Q, ((Nat.lcm (P - 1) (Q - 1) : ℕ) : Int),
      ((P : Int) - 1) * (Q - 1)) := by
    show getNAndLambda draw (99 + 1) 0 = _
    unfold getNAndLambda
    rw [hgp, Res.bind_ok]
    simp only
    rw [if_pos hrel, hl]
  obtain ⟨mu, hmu⟩ := getGAndMu_good g 99
  obtain ⟨-, hpk, hver⟩ := Factor.C44_returned_verifies Hb _ (P * Q) salts tape rest msg hnew
  unfold NewPaillierUnSafe
  rw [hgn, Res.bind_ok]
  simp only
  rw [eN, hmu, Res.bind_ok]
  simp only
  rw [hnew, Res.bind_ok]
  simp only
  have hpub : ToPubkey Hb ⟨msg, intBytes (1 + ((P * Q : ℕ) : Int))⟩ =
      .ok ⟨((P * Q : ℕ) : Int), 1 + ((P * Q : ℕ) : Int), ((P * Q : ℕ) : Int) * ((P * Q : ℕ) : Int)⟩ := by
    have eg : beNat (intBytes (1 + ((P * Q : ℕ) : Int))) = 1 + P * Q := by rw [beNat_intBytes]; omega
    unfold ToPubkey
    simp only
    rw [hver, Res.bind_ok, hpk, eg, if_neg (by omega)]
    generalize P * Q = n at *
    rw [InRange_ok.mpr ⟨by omega, by push_cast; nlinarith⟩, Res.bind_ok, if_neg]
    · push_cast; rfl
    · rw [not_not]
      have e : (n : Int) * n = ((n * n : ℕ) : Int) := by push_cast; rfl
      rw [e, Factor.relPrime_nat]
      have : Nat.Coprime (1 + n) n := by simp
      exact Nat.Coprime.mul_right this this
  rw [hpub, Res.bind_ok]
  exact ⟨_, rfl, rfl, rfl⟩

/-- C34. The N-th root exponent inverts N-th powers: raising x^N to it gives x back, for every x coprime to N. -/
theorem C34_nth_root (k : Key) (P Q : Nat) (h : IsKey k P Q) :
    ∃ d : Nat, GetNthRoot k = .ok (some (d : Int)) ∧ ∀ x : Nat, Nat.Coprime x (P * Q) → (x ^ (P * Q)) ^ d ≡ x [MOD P * Q] := by
  have hP1 := h.hP.one_lt
  have hQ1 := h.hQ.one_lt
  have hone := h.good.one_lt
  have htot : Nat.totient (P * Q) = (P - 1) * (Q - 1) := by
    rw [Nat.totient_mul ((Nat.coprime_primes h.hP h.hQ).mpr h.ne), Nat.totient_prime h.hP, Nat.totient_prime h.hQ]
  have he : EulerFunction [k.priv.p, k.priv.q] = .ok (((P - 1) * (Q - 1) : ℕ) : Int) := by
    rw [h.p, h.q]
    unfold EulerFunction
    rw [if_neg (by simp)]
    simp only [eulerLoop]
    rw [if_neg (by omega), if_neg (by omega)]
    push_cast [Nat.cast_sub h.hP.one_le, Nat.cast_sub h.hQ.one_le]
    ring_nf
  have hpos : 0 < (P - 1) * (Q - 1) := Nat.mul_pos (by omega) (by omega)
  unfold GetNthRoot
  rw [he, Res.bind_ok, h.n]
  cases hm : modInverse ((P * Q : ℕ) : Int) (((P - 1) * (Q - 1) : ℕ) : Int) with
  | none => rw [modInverse_eq_none] at hm; exact absurd h.cop hm
  | some d =>
    obtain ⟨d0, -, hd⟩ := modInverse_spec (by omega) hm
    obtain ⟨d, rfl⟩ := Int.eq_ofNat_of_zero_le d0
    refine ⟨d, rfl, ?_⟩
    intro x hx
    rw [← pow_mul]
    have h1 : (P * Q * d : ℕ) ≡ 1 [MOD (P - 1) * (Q - 1)] := by
      rw [← Int.natCast_modEq_iff]; push_cast at hd ⊢; exact hd
    rw [← htot] at h1
    rw [← ZMod.natCast_eq_natCast_iff]
    push_cast
    obtain ⟨u, hu⟩ := (ZMod.isUnit_iff_coprime x (P * Q)).mpr hx
    rw [← hu, ← Units.val_pow_eq_pow_val]
    congr 1
    have h2 := pow_eq_pow_iff_modEq (x := u) (n := P * Q * d) (m := 1)
    rw [h2.mpr (h1.of_dvd (orderOf_dvd_of_pow_eq_one (ZMod.pow_totient u))), pow_one]

/-- C34. Exactly which public-key messages are accepted, and what key they give: an accepted factorization proof for n ≥ 1, and a
base in [2, n²) coprime to n. -/
theorem C34_pubkey_iff (Hb : Bytes → Bytes) (msg : PubKeyMessage) (pub : PublicKey) :
    ToPubkey Hb msg = .ok pub ↔
      let n := beNat msg.proof.publicKey; let g := beNat msg.G
      Factor.Verify Hb msg.proof = .ok () ∧ 2 ≤ g ∧ g < n * n ∧ Nat.Coprime g n ∧
        pub = ⟨(n : Int), (g : Int), (n : Int) * n⟩ := by
  simp only
  unfold ToPubkey
  simp only
  set n := beNat msg.proof.publicKey
  set g := beNat msg.G
  have hrel : IsRelativePrime (g : Int) ((n : Int) * n) = true ↔ Nat.Coprime g n := by
    have e : (n : Int) * n = ((n * n : ℕ) : Int) := by push_cast; rfl
    rw [e, Factor.relPrime_nat]
    constructor
    · intro h; exact Nat.Coprime.coprime_mul_right_right h
    · intro h; exact Nat.Coprime.mul_right h h
  constructor
  · intro h
    obtain ⟨_, h1, h⟩ := Res.bind_eq_ok.mp h
    split at h
    · simp at h
    obtain ⟨_, h2, h⟩ := Res.bind_eq_ok.mp h
    rw [InRange_ok] at h2
    split at h
    · simp at h
    next h3 =>
    simp only [Res.ok.injEq] at h
    exact ⟨h1, by omega, by exact_mod_cast h2.2, hrel.mp (not_not.mp h3), h.symm⟩
  · rintro ⟨h1, h2, h3, h4, rfl⟩
    have hn : 0 < n := by rcases Nat.eq_zero_or_pos n with h0 | h0 <;> [(rw [h0] at h3; omega); exact h0]
    rw [h1, Res.bind_ok, if_neg (by omega), InRange_ok.mpr ⟨by exact_mod_cast h2, by exact_mod_cast h3⟩, Res.bind_ok,
      if_neg (not_not.mpr (hrel.mpr h4))]

/-- C34. Ring-Pedersen parameters are accepted exactly if both bases are coprime to the modulus and it has 2048 bits. -/
theorem C34_pedersen_open (n s t : Nat) :
    (∃ r, NewPedersenOpenParameter n s t = .ok r) ↔ Nat.Coprime s n ∧ Nat.Coprime t n ∧ 2048 ≤ bitLen (n : Int) := by
  unfold NewPedersenOpenParameter
  rw [← Factor.relPrime_nat, ← Factor.relPrime_nat]
  by_cases h1 : IsRelativePrime (s : Int) n = true
  swap
  · rw [if_pos h1]; simp [h1]
  rw [if_neg (not_not.mpr h1)]
  by_cases h2 : IsRelativePrime (t : Int) n = true
  swap
  · rw [if_pos h2]; simp [h2]
  rw [if_neg (not_not.mpr h2)]
  by_cases h3 : bitLen (n : Int) < 2048
  · rw [if_pos h3]; simp [h1, h2, h3]
  · rw [if_neg h3]; simp [h1, h2]; omega

/-! ### A concrete key: P = 11, Q = 17 -/

/-- λ = 80, mu = 80⁻¹ mod 187 = 180. -/
def toyKey : Key := ⟨⟨187, 188, 34969⟩, ⟨11, 17, 80, 160, 180⟩⟩

theorem toyKey_isKey : IsKey toyKey 11 17 :=
  ⟨by norm_num, by norm_num, by decide, by decide, rfl, rfl, rfl, rfl, rfl, rfl, rfl, by decide⟩

/-- A full round trip: encrypt, add, multiply by −3, decrypt. -/
example : ∃ c1 c2 c3 c4 : Bytes, Encrypt toyKey.pub [42] [5] = .ok (c1, []) ∧ Encrypt toyKey.pub [0, 100] [7] = .ok (c2, []) ∧
    Add toyKey.pub c1 c2 [9] = .ok (c3, []) ∧ MulConst toyKey.pub c1 (-3) [9] = .ok (c4, []) ∧
    Decrypt toyKey c1 = .ok [42] ∧ Decrypt toyKey c3 = .ok [142] ∧ Decrypt toyKey c4 = .ok [61] := by
  refine ⟨_, _, _, _, rfl, rfl, rfl, rfl, ?_⟩
  decide +kernel

/-! ### The message range -/

/-- C34. `GetMessageRange` is the largest bound that leaves room for a product of two field elements: below it a·b + m is never
reduced modulo n, at it it is. -/
theorem C34_message_range (pub : PublicKey) (q : Int) (hq : 1 ≤ q) :
    (∀ a b m : Int, 0 ≤ a → a < q → 0 ≤ b → b < q → 0 ≤ m → m < GetMessageRange pub q → 0 ≤ a * b + m ∧ a * b + m < pub.n) ∧
    (0 ≤ GetMessageRange pub q → ∃ a b : Int, 0 ≤ a ∧ a < q ∧ 0 ≤ b ∧ b < q ∧ a * b + GetMessageRange pub q = pub.n) := by
  unfold GetMessageRange
  constructor
  · intro a b m a0 a1 b0 b1 m0 m1
    have h1 : 0 ≤ a * b := mul_nonneg a0 b0
    have h2 : a * b ≤ (q - 1) * (q - 1) := mul_le_mul (by omega) (by omega) b0 (by omega)
    rw [pow_two] at m1
    constructor <;> omega
  · intro _
    refine ⟨q - 1, q - 1, by omega, by omega, by omega, by omega, by ring⟩

example : ∃ pub : PublicKey, 0 ≤ GetMessageRange pub 5 ∧ pub.n = 77 := ⟨{ toyKey.pub with n := 77 }, by decide, rfl⟩

end Tss.AlicePaillier
