import Verif.Lemmas.AlicePaillier
import Mathlib.FieldTheory.Finite.Basic
/-! C44: the proof of knowledge of the factorization (crypto/alice/zkproof/integerfactorization.go). -/
namespace Tss.Factor
open Tss Alice AlicePaillier

/-! ### Specification -/

namespace spec

/-- The base: the top bits of BLAKE2b blocks of "1", N and the block number, as many as N has. -/
def base (Hb : Bytes → Bytes) (N : Nat) : Nat := beNat (ExtnedHashOuput Hb [1] (natBE N) (bitLen (N : Int)))

/-- The challenge: 80 bits of the hash of salt, commitment, base and modulus. -/
def chal (Hb : Bytes → Bytes) (salt : Bytes) (N x : Nat) : Nat :=
  beNat (HashProtos Hb salt [natBE x, natBE (base Hb N), natBE N]) % 2 ^ 80

end spec

theorem candidate_eq (Hb : Bytes → Bytes) (N : Nat) : candidate Hb N 1 = (spec.base Hb N : Int) := rfl

theorem innerZ_eq (Hb : Bytes → Bytes) (N index : Int) : ∀ k, innerZ Hb N index k = candidate Hb N index
  | 0 => rfl
  | k + 1 => by
    unfold innerZ
    split
    · rfl
    · exact innerZ_eq Hb N index k

/-- The retries of the base repeat the same computation: it is found at once or never. -/
theorem generateZ_eq (Hb : Bytes → Bytes) (N index : Int) : generateZ Hb N index maxRetry =
    if IsRelativePrime (candidate Hb N index) N then .ok (candidate Hb N index) else .err .exceedMaxRetry := by
  have key : ∀ m k, outerZ Hb N index m (k + 1) =
      if IsRelativePrime (candidate Hb N index) N then .ok (candidate Hb N index) else .err .exceedMaxRetry := by
    intro m k
    induction k with
    | zero => unfold outerZ; simp only [innerZ_eq, outerZ]
    | succ k ih => unfold outerZ; simp only [innerZ_eq, ih]; split <;> rfl
  exact key 100 99

theorem relPrime_nat (a n : Nat) : IsRelativePrime (a : Int) n = true ↔ Nat.Coprime a n := by
  rw [IsRelativePrime_iff]; simp [Int.gcd, Nat.Coprime]

/-- C44. Exactly which messages are accepted: 1 ≤ x < N, y < N − 1, the base coprime to N, and
base^(y − N·e) ≡ x modulo N. The size of N, its compositeness and the range of the base are not looked at. -/
theorem C44_verify_iff (Hb : Bytes → Bytes) (msg : Msg) :
    Verify Hb msg = .ok () ↔
      let N := beNat msg.publicKey; let x := beNat msg.X; let y := beNat msg.Y; let z := spec.base Hb N
      1 ≤ x ∧ x < N ∧ y + 1 < N ∧ Nat.Coprime z N ∧
        ∀ u : (ZMod N)ˣ, (u : ZMod N) = z → (x : ZMod N) =
          ((u ^ ((y : Int) - N * spec.chal Hb msg.salt N x) : (ZMod N)ˣ) : ZMod N) := by
  simp only
  set N := beNat msg.publicKey with hN
  set x := beNat msg.X with hx
  set y := beNat msg.Y with hy
  have hchal : HashProtosToInt Hb msg.salt [intBytes (x : Int), intBytes (spec.base Hb N : Int), intBytes (N : Int)] %
      challengeSize = (spec.chal Hb msg.salt N x : Int) := by
    unfold spec.chal HashProtosToInt challengeSize intBytes
    simp
  unfold Verify
  simp only [← hN, ← hx, ← hy]
  by_cases h1 : 1 ≤ x ∧ x < N
  swap
  · constructor
    · intro h
      obtain ⟨_, h, _⟩ := Res.bind_eq_ok.mp h
      rw [InRange_ok] at h; omega
    · intro h; omega
  rw [InRange_ok.mpr (by omega : (1 : Int) ≤ x ∧ (x : Int) < N), Res.bind_ok]
  by_cases h2 : y + 1 < N
  swap
  · constructor
    · intro h
      obtain ⟨_, h, _⟩ := Res.bind_eq_ok.mp h
      rw [InRange_ok] at h; omega
    · intro h; omega
  rw [InRange_ok.mpr (by omega : (0 : Int) ≤ y ∧ (y : Int) < N - 1), Res.bind_ok, generateZ_eq, candidate_eq]
  by_cases h3 : Nat.Coprime (spec.base Hb N) N
  swap
  · rw [if_neg (by rw [relPrime_nat]; exact h3)]
    constructor
    · intro h; simp [Res.bind] at h
    · intro h; exact absurd h.2.2.2.1 h3
  rw [if_pos ((relPrime_nat _ _).mpr h3), Res.bind_ok, hchal]
  have hnz : NeZero N := ⟨by omega⟩
  have hg : Int.gcd (spec.base Hb N : Int) (N : Int) = 1 := by simpa [Int.gcd, Nat.Coprime] using h3
  obtain ⟨u, hu⟩ := exists_unit hg
  have hu' : (u : ZMod N) = (spec.base Hb N : ZMod N) := by rw [hu]; simp
  have huniq : ∀ v : (ZMod N)ˣ, (v : ZMod N) = (spec.base Hb N : ZMod N) → v = u := fun v hv => Units.ext (hv.trans hu'.symm)
  cases hb : bigExp (spec.base Hb N : Int) ((y : Int) - N * spec.chal Hb msg.salt N x) N with
  | none => rw [bigExp_none] at hb; exact absurd hg hb.2
  | some r =>
    rw [bigExp_some, ← hu, pw_unit] at hb
    obtain ⟨_, r0, r1, hr⟩ := hb
    simp only
    have e : r = x ↔ (r : ZMod N) = ((x : Int) : ZMod N) := residue_eq r0 r1 (by omega) (by omega)
    by_cases h4 : r = x
    · rw [if_neg (not_not.mpr h4)]
      simp only [true_iff]
      refine ⟨h1.1, h1.2, h2, h3, ?_⟩
      intro v hv
      rw [huniq v hv, ← hr, e.mp h4]; simp
    · rw [if_pos h4]
      simp only [reduceCtorEq, false_iff]
      rintro ⟨-, -, -, -, h⟩
      exact h4 (e.mpr (by rw [hr, ← h u hu']; simp))

theorem verify_of (Hb : Bytes → Bytes) (msg : Msg) {N x y : Nat} (hN : beNat msg.publicKey = N) (hx : beNat msg.X = x)
    (hy : beNat msg.Y = y) :
    Verify Hb msg = .ok () ↔ 1 ≤ x ∧ x < N ∧ y + 1 < N ∧ Nat.Coprime (spec.base Hb N) N ∧
        ∀ u : (ZMod N)ˣ, (u : ZMod N) = spec.base Hb N → (x : ZMod N) =
          ((u ^ ((y : Int) - N * spec.chal Hb msg.salt N x) : (ZMod N)ˣ) : ZMod N) := by
  subst hN hx hy; exact C44_verify_iff Hb msg

/-- C44. Verification never crashes, whatever the message. -/
theorem C44_verify_total (Hb : Bytes → Bytes) (msg : Msg) : Verify Hb msg ≠ .panic := by
  unfold Verify
  simp only
  intro h
  rcases Res.bind_eq_panic.mp h with h | ⟨_, hr, h⟩
  · revert h; unfold InRange; split_ifs <;> simp
  rcases Res.bind_eq_panic.mp h with h | ⟨_, _, h⟩
  · revert h; unfold InRange; split_ifs <;> simp
  rw [generateZ_eq] at h
  rcases Res.bind_eq_panic.mp h with h | ⟨z, hz, h⟩
  · revert h; split_ifs <;> simp
  have hnz : NeZero (beNat msg.publicKey) := ⟨by rw [InRange_ok] at hr; omega⟩
  split at h
  · next hb =>
    rw [bigExp_none] at hb
    split_ifs at hz with hg
    · simp only [Res.ok.injEq] at hz
      rw [IsRelativePrime_iff, hz] at hg; exact hb.2 hg
  · revert h; split_ifs <;> simp

/-! ### The prover -/

/-- C44. Every message the prover returns is for the modulus given, at least 2048 bits long, and is accepted. -/
theorem C44_returned_verifies (Hb : Bytes → Bytes) (primes : List Int) (N : Nat) (salts : Nat → Nat → Bytes) (tape rest : Bytes)
    (msg : Msg) (h : New Hb primes N salts tape = .ok (msg, rest)) :
    2048 ≤ bitLen (N : Int) ∧ beNat msg.publicKey = N ∧ Verify Hb msg = .ok () := by
  unfold New safePubKeySize at h
  split at h
  · simp at h
  next hb =>
  refine ⟨by omega, ?_⟩
  have key : ∀ k tape, newLoop Hb primes N salts k tape = .ok (msg, rest) →
      beNat msg.publicKey = N ∧ Verify Hb msg = .ok () := by
    intro k
    induction k with
    | zero => intro tape h; simp [newLoop] at h
    | succ k ih =>
      intro tape h
      unfold newLoop at h
      cases ha : attempt Hb primes N tape (salts k) with
      | err e => rw [ha] at h; simp at h
      | panic => rw [ha] at h; simp at h
      | ok p =>
        obtain ⟨m, r⟩ := p
        rw [ha] at h
        simp only at h
        cases hv : Verify Hb m with
        | panic => exact absurd hv (C44_verify_total _ _)
        | err e => rw [hv] at h; exact ih _ h
        | ok u =>
          rw [hv] at h
          simp only [Res.ok.injEq, Prod.mk.injEq] at h
          obtain ⟨rfl, rfl⟩ := h
          refine ⟨?_, hv⟩
          unfold attempt at ha
          simp only at ha
          obtain ⟨_, _, ha⟩ := Res.bind_eq_ok.mp ha
          obtain ⟨_, _, ha⟩ := Res.bind_eq_ok.mp ha
          split at ha
          · simp at ha
          obtain ⟨_, _, ha⟩ := Res.bind_eq_ok.mp ha
          obtain ⟨_, _, ha⟩ := Res.bind_eq_ok.mp ha
          simp only [Res.ok.injEq, Prod.mk.injEq] at ha
          rw [← ha.1]
          simp only [beNat_intBytes, Int.natAbs_natCast]
  exact key _ _ h

/-- C44. A modulus below 2048 bits is refused by the prover. -/
theorem C44_small_key (Hb : Bytes → Bytes) (primes : List Int) (N : Int) (salts : Nat → Nat → Bytes) (tape : Bytes)
    (h : bitLen N < 2048) : New Hb primes N salts tape = .err .smallPublicKeySize := by
  unfold New safePubKeySize; rw [if_pos h]

theorem euler_two {p q : Nat} (hp : p.Prime) (hq : q.Prime) (hne : p ≠ q) {v : Int}
    (h : EulerFunction [(p : Int), (q : Int)] = .ok v) : v = (Nat.totient (p * q) : Int) := by
  have hp1 := hp.one_lt; have hq1 := hq.one_lt
  unfold EulerFunction at h
  rw [if_neg (by simp)] at h
  simp only [eulerLoop] at h
  rw [if_neg (by omega), if_neg (by omega)] at h
  simp only [Res.ok.injEq] at h
  rw [Nat.totient_mul ((Nat.coprime_primes hp hq).mpr hne), Nat.totient_prime hp, Nat.totient_prime hq, ← h]
  push_cast [Nat.cast_sub hp.one_le, Nat.cast_sub hq.one_le]
  ring

theorem reject_spec {Hb : Bytes → Bytes} {order : Int} {msgs : List Bytes} {salts : Nat → Bytes} {c : Int} {salt : Bytes}
    (h : HashProtosRejectSampling Hb order msgs salts = .ok (c, salt)) :
    c = HashProtosToInt Hb salt msgs ∧ 0 ≤ c ∧ c < order := by
  unfold HashProtosRejectSampling at h
  have key : ∀ k, rejectLoop Hb order msgs salts k = .ok (c, salt) → c = HashProtosToInt Hb salt msgs ∧ 0 ≤ c ∧ c < order := by
    intro k
    induction k with
    | zero => simp [rejectLoop]
    | succ k ih =>
      intro h
      unfold rejectLoop at h
      simp only at h
      split at h
      · next hr =>
        simp only [Res.ok.injEq, Prod.mk.injEq] at h
        obtain ⟨rfl, rfl⟩ := h
        have := InRange_ok.mp hr
        exact ⟨rfl, this⟩
      · exact ih h
  exact key _ h

/-- C44 (completeness). With the two distinct prime factors of N, an attempt of the prover that produces a message is accepted
exactly when the response stays below N − 1; the response is r + (N − φ(N))·e for a mask 1 ≤ r < N − 1, which is the one draw of the attempt. -/
theorem C44_attempt (Hb : Bytes → Bytes) (p q : Nat) (hp : p.Prime) (hq : q.Prime) (hne : p ≠ q) (tape rest : Bytes)
    (salts : Nat → Bytes) (msg : Msg)
    (h : attempt Hb [(p : Int), (q : Int)] ((p * q : ℕ) : Int) tape salts = .ok (msg, rest)) :
    ∃ r : Nat, RandomPositiveInt (((p * q : ℕ) : Int) - 1) tape = .ok ((r : Int), rest) ∧ 1 ≤ r ∧ r + 1 < p * q ∧
      beNat msg.X = spec.base Hb (p * q) ^ r % (p * q) ∧
      beNat msg.Y = r + (p * q - Nat.totient (p * q)) * spec.chal Hb msg.salt (p * q) (beNat msg.X) ∧
      (Verify Hb msg = .ok () ↔ beNat msg.Y + 1 < p * q) := by
  have hn : 1 < p * q := Nat.one_lt_mul_iff.2 ⟨hp.pos, hq.pos, .inl hp.one_lt⟩
  set N := p * q with hNdef
  unfold attempt at h
  simp only at h
  obtain ⟨⟨r, r1⟩, h1, h⟩ := Res.bind_eq_ok.mp h
  obtain ⟨z, h2, h⟩ := Res.bind_eq_ok.mp h
  have hr : 1 ≤ r ∧ r < (N : Int) - 1 := RandomPositiveInt_range h1
  obtain ⟨k, rfl⟩ := Int.eq_ofNat_of_zero_le (by omega : 0 ≤ r)
  rw [generateZ_eq, candidate_eq] at h2
  split at h2
  swap
  · simp at h2
  next hcop =>
  rw [relPrime_nat] at hcop
  simp only [Res.ok.injEq] at h2
  subst h2
  simp only at h
  rw [RingPed.bigExp_mod (by omega) (by omega)] at h
  simp only [Int.toNat_natCast] at h
  obtain ⟨⟨e, salt⟩, h3, h⟩ := Res.bind_eq_ok.mp h
  obtain ⟨eul, h4, h⟩ := Res.bind_eq_ok.mp h
  have h4 := euler_two hp hq hne h4
  obtain ⟨h3, e0, -⟩ := reject_spec h3
  simp only [Res.ok.injEq, Prod.mk.injEq] at h
  obtain ⟨rfl, rfl⟩ := h
  have eX : ((spec.base Hb N : Int) ^ k % (N : Int)) = ((spec.base Hb N ^ k % N : ℕ) : Int) := by push_cast; rfl
  have htot : Nat.totient N ≤ N := Nat.totient_le N
  have ee : e % challengeSize = (spec.chal Hb salt N (spec.base Hb N ^ k % N) : Int) := by
    rw [h3, eX]
    unfold spec.chal HashProtosToInt challengeSize intBytes
    rw [Int.natAbs_natCast, Int.natAbs_natCast, Int.natAbs_natCast]
    push_cast
    rfl
  have eY : ((k : Int) + ((N : Int) - eul) * (e % challengeSize)) =
      ((k + (N - Nat.totient N) * spec.chal Hb salt N (spec.base Hb N ^ k % N) : ℕ) : Int) := by
    rw [ee, h4, ← hNdef]
    push_cast [Nat.cast_sub htot]
    ring
  rw [eX, eY]
  refine ⟨k, h1, by omega, by omega, ?_, ?_, ?_⟩
  · simp only [beNat_intBytes, Int.natAbs_natCast]
  · simp only [beNat_intBytes, Int.natAbs_natCast]
  · rw [verify_of Hb _ (N := N) (x := spec.base Hb N ^ k % N) (by simp only [beNat_intBytes, Int.natAbs_natCast])
      (by simp only [beNat_intBytes, Int.natAbs_natCast]) rfl]
    simp only [beNat_intBytes, Int.natAbs_natCast]
    generalize spec.chal Hb salt N (spec.base Hb N ^ k % N) = ch
    constructor
    · intro g; exact g.2.2.1
    · intro g
      refine ⟨?_, Nat.mod_lt _ (by omega), g, hcop, ?_⟩
      · by_contra hc
        have h0 : spec.base Hb N ^ k % N = 0 := by omega
        have h1 : Nat.Coprime (spec.base Hb N ^ k) N := Nat.Coprime.pow_left k hcop
        have h2 : N ∣ spec.base Hb N ^ k := Nat.dvd_of_mod_eq_zero h0
        have h3 := Nat.Coprime.eq_one_of_dvd h1.symm h2
        omega
      · intro u hu
        have hut : u ^ Nat.totient N = 1 := ZMod.pow_totient u
        have e1 : ((k + (N - Nat.totient N) * ch : ℕ) : Int) - N * ch = (k : Int) - (Nat.totient N : Int) * ch := by
          push_cast [Nat.cast_sub htot]; ring
        rw [e1, zpow_sub, zpow_mul, zpow_natCast, zpow_natCast, zpow_natCast, hut, one_pow]
        simp only [inv_one, mul_one, Units.val_pow_eq_pow_val, hu]
        rw [ZMod.natCast_mod, Nat.cast_pow]

theorem reject_first {Hb : Bytes → Bytes} (hH : ∀ b, (Hb b).length = 32) {msgs : List Bytes} {salts : Nat → Bytes} {c : Int}
    {salt : Bytes} {order : Int} (ho : order = ((256 ^ 32 : ℕ) : Int))
    (h : HashProtosRejectSampling Hb order msgs salts = .ok (c, salt)) : salt = salts 99 := by
  unfold HashProtosRejectSampling at h
  change rejectLoop Hb order msgs salts (99 + 1) = _ at h
  unfold rejectLoop at h
  have hr : InRange (HashProtosToInt Hb (salts 99) msgs) 0 order = .ok () := by
    rw [InRange_ok]
    unfold HashProtosToInt HashProtos
    have h1 := beNat_lt (Hb (hashInput (salts 99) msgs))
    rw [hH] at h1
    rw [ho]
    exact ⟨by positivity, by exact_mod_cast h1⟩
  simp only [hr, Res.ok.injEq, Prod.mk.injEq] at h
  exact h.2.symm

/-- C44. The challenge needs no retry: with a hash of 32 bytes the message carries the first salt drawn (`salts k` is the salt
of the attempt with k attempts left after it, so the first of the hundred is `salts 99`). -/
theorem C44_first_salt (Hb : Bytes → Bytes) (hH : ∀ b, (Hb b).length = 32) (primes : List Int) (N : Int) (tape rest : Bytes)
    (salts : Nat → Bytes) (msg : Msg) (h : attempt Hb primes N tape salts = .ok (msg, rest)) : msg.salt = salts 99 := by
  unfold attempt at h
  simp only at h
  obtain ⟨⟨r, r1⟩, h1, h⟩ := Res.bind_eq_ok.mp h
  obtain ⟨z, h2, h⟩ := Res.bind_eq_ok.mp h
  split at h
  · cases h
  · obtain ⟨⟨e, salt⟩, h3, h⟩ := Res.bind_eq_ok.mp h
    obtain ⟨v, h4, h⟩ := Res.bind_eq_ok.mp h
    simp only [Res.ok.injEq, Prod.mk.injEq] at h
    rw [← h.1]
    exact reject_first hH (by norm_num) h3

/-! ### Soundness -/

/-- C44 (special soundness). From two accepted messages for the same modulus and commitment but different challenges e, e' one reads
off a non-zero multiple of the order of the base modulo N: the difference of y - N·e and y' - N·e'. -/
theorem C44_special_soundness (Hb : Bytes → Bytes) (m m' : Msg) (hN : m.publicKey = m'.publicKey) (hX : beNat m.X = beNat m'.X)
    (h : Verify Hb m = .ok ()) (h' : Verify Hb m' = .ok ())
    (hne : spec.chal Hb m.salt (beNat m.publicKey) (beNat m.X) ≠ spec.chal Hb m'.salt (beNat m.publicKey) (beNat m.X)) :
    let N := beNat m.publicKey
    let d : Int := ((beNat m.Y : Int) - N * spec.chal Hb m.salt N (beNat m.X)) -
      ((beNat m'.Y : Int) - N * spec.chal Hb m'.salt N (beNat m.X))
    d ≠ 0 ∧ spec.base Hb N ^ d.natAbs ≡ 1 [MOD N] := by
  intro N d
  rw [C44_verify_iff] at h h'
  rw [← hN, ← hX] at h'
  simp only at h h'
  change spec.chal Hb m.salt N (beNat m.X) ≠ spec.chal Hb m'.salt N (beNat m.X) at hne
  set e := spec.chal Hb m.salt N (beNat m.X)
  set e' := spec.chal Hb m'.salt N (beNat m.X)
  obtain ⟨-, hx, hy, hc, heq⟩ := h
  obtain ⟨-, -, hy', -, heq'⟩ := h'
  have hnz : NeZero N := ⟨by omega⟩
  have hg : Int.gcd (spec.base Hb N : Int) (N : Int) = 1 := by simpa [Int.gcd, Nat.Coprime] using hc
  obtain ⟨u, hu⟩ := exists_unit hg
  have hu' : (u : ZMod N) = (spec.base Hb N : ZMod N) := by rw [hu]; simp
  have h1 := heq u hu'
  rw [heq' u hu'] at h1
  have h2 := Units.ext h1
  obtain ⟨a, ha⟩ : ∃ a : Int, a = (beNat m.Y : Int) - N * e := ⟨_, rfl⟩
  obtain ⟨b, hb⟩ : ∃ b : Int, b = (beNat m'.Y : Int) - N * e' := ⟨_, rfl⟩
  have hd : d = a - b := by rw [ha, hb]
  rw [hd]
  change u ^ ((beNat m'.Y : Int) - N * e') = u ^ ((beNat m.Y : Int) - N * e) at h2
  rw [← ha, ← hb] at h2
  have hz : u ^ (a - b) = 1 := by rw [zpow_sub, ← h2]; simp
  have hab : a - b ≠ 0 := by
    intro h0
    have h3 : (beNat m.Y : Int) - beNat m'.Y = N * ((e : Int) - e') := by rw [ha, hb] at h0; linarith
    rcases lt_or_gt_of_ne hne with hlt | hlt
    · have : (e : Int) - e' ≤ -1 := by omega
      have : (N : Int) * ((e : Int) - e') ≤ N * (-1) := mul_le_mul_of_nonneg_left this (by omega)
      omega
    · have : 1 ≤ (e : Int) - e' := by omega
      have : (N : Int) * 1 ≤ N * ((e : Int) - e') := mul_le_mul_of_nonneg_left this (by omega)
      omega
  refine ⟨hab, ?_⟩
  have hp : u ^ (a - b).natAbs = 1 := by
    rcases Int.natAbs_eq (a - b) with h3 | h3
    · rw [h3, zpow_natCast] at hz; exact hz
    · rw [h3, zpow_neg, zpow_natCast, inv_eq_one] at hz; exact hz
  rw [← ZMod.natCast_eq_natCast_iff]
  push_cast
  rw [← hu', ← Units.val_pow_eq_pow_val, hp]; simp

/-- C44. The verifier's message does not tell that N is long, or composite: for EVERY modulus N ≥ 3 coprime to its
base (tiny or prime ones included), every mask r and every salt, whoever knows φ(N) makes an accepted message. -/
theorem C44_any_modulus_accepted (Hb : Bytes → Bytes) (N : Nat) (hN : 3 ≤ N) (hc : Nat.Coprime (spec.base Hb N) N) (r : Nat)
    (salt : Bytes) :
    let x := spec.base Hb N ^ r % N
    let y := (r + N * spec.chal Hb salt N x) % Nat.totient N
    Verify Hb ⟨salt, natBE N, natBE x, natBE y⟩ = .ok () := by
  simp only
  rw [verify_of Hb _ (beNat_natBE N) (beNat_natBE _) (beNat_natBE _)]
  set x := spec.base Hb N ^ r % N with hx
  set e := spec.chal Hb salt N x
  have ht : 0 < Nat.totient N := Nat.totient_pos.mpr (by omega)
  have hlt : Nat.totient N < N := Nat.totient_lt N (by omega)
  have hm := Nat.mod_lt (r + N * e) ht
  refine ⟨?_, Nat.mod_lt _ (by omega), by omega, hc, ?_⟩
  · by_contra h0
    have h0 : spec.base Hb N ^ r % N = 0 := by omega
    have h1 : Nat.Coprime (spec.base Hb N ^ r) N := Nat.Coprime.pow_left r hc
    have h3 := Nat.Coprime.eq_one_of_dvd h1.symm (Nat.dvd_of_mod_eq_zero h0)
    omega
  · intro u hu
    have hut : u ^ Nat.totient N = 1 := ZMod.pow_totient u
    have e1 : u ^ ((r + N * e) % Nat.totient N) = u ^ (r + N * e) := by
      conv_rhs => rw [← Nat.mod_add_div (r + N * e) (Nat.totient N), pow_add, pow_mul, hut, one_pow, mul_one]
    rw [zpow_sub, zpow_natCast, e1, pow_add]
    have e2 : u ^ ((N : Int) * e) = u ^ (N * e) := by rw [← zpow_natCast]; push_cast; rfl
    rw [e2, mul_inv_cancel_right]
    simp only [Units.val_pow_eq_pow_val, hu, hx]
    rw [ZMod.natCast_mod, Nat.cast_pow]

/-! ### A concrete case -/

/-- A toy hash: every digest is 32 bytes ending in the length of the input. -/
def toyHash (b : Bytes) : Bytes := List.replicate 31 255 ++ [UInt8.ofNat b.length]

/-- The base for N = 55 under the toy hash is coprime to 55, so the last theorem applies to it. -/
example : Nat.Coprime (spec.base toyHash 55) 55 := by decide +kernel

/-- An accepted message for 55. -/
def toyMsg (salt : Bytes) : Msg :=
  ⟨salt, natBE 55, natBE (spec.base toyHash 55 ^ 4 % 55),
    natBE ((4 + 55 * spec.chal toyHash salt 55 (spec.base toyHash 55 ^ 4 % 55)) % Nat.totient 55)⟩

theorem toyMsg_ok (salt : Bytes) : Verify toyHash (toyMsg salt) = .ok () :=
  C44_any_modulus_accepted toyHash 55 (by norm_num) (by decide +kernel) 4 salt

/-- Two accepted messages with the same commitment and different challenges exist (salts of different lengths). -/
example : ∃ m m' : Msg, m.publicKey = m'.publicKey ∧ beNat m.X = beNat m'.X ∧ Verify toyHash m = .ok () ∧
    Verify toyHash m' = .ok () ∧
    spec.chal toyHash m.salt (beNat m.publicKey) (beNat m.X) ≠ spec.chal toyHash m'.salt (beNat m.publicKey) (beNat m.X) :=
  ⟨toyMsg [], toyMsg [1], rfl, rfl, toyMsg_ok _, toyMsg_ok _, by decide +kernel⟩

/-- An attempt of the prover that produces a message. -/
example : (attempt toyHash [5, 11] 55 [3] (fun _ => [])).isOk := by decide +kernel

/-- Another toy hash, for which the base of a 2048-bit modulus is 1 and challenges are 0. -/
def toyHash1 (b : Bytes) : Bytes := List.replicate 31 0 ++ [if b.getLast? = some 55 then 1 else 0]

/-- The prover returns a message for a modulus of 2048 bits. -/
example : (New toyHash1 [3, 5] ((2 ^ 2047 + 1 : ℕ) : Int) (fun _ _ => []) (List.replicate 256 0)).isOk := by decide +kernel

end Tss.Factor
