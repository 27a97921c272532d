import Verif.Lemmas.AlicePaillier
import Mathlib.Data.List.GetD
/-! C43: the proof of ring-Pedersen parameters (crypto/alice/zkproof/paillier). -/
namespace Tss.RingPed
open Tss Alice AlicePaillier

/-! ### Specification -/

namespace spec

/-- The challenge bit: parity of the hash of salt, session, N, s, t and the one commitment. -/
def bit (Hb : Bytes → Bytes) (salt ssid : Bytes) (n s t : Nat) (a : Bytes) : Nat :=
  beNat (HashProtos Hb salt [ssid, natBE n, natBE s, natBE t, a]) % 2

/-- One accepted pair of commitment and response. -/
def Good (Hb : Bytes → Bytes) (salt ssid : Bytes) (n s t : Nat) (a z : Bytes) : Prop :=
  beNat a < n ∧ Nat.Coprime (beNat a) n ∧ beNat z < n ∧ t ^ beNat z ≡ s ^ bit Hb salt ssid n s t a * beNat a [MOD n]

end spec

theorem chal_eq (Hb : Bytes → Bytes) (salt ssid : Bytes) (n s t : Nat) (a : Bytes) :
    chal Hb salt ssid n s t a = (spec.bit Hb salt ssid n s t a : Int) := by
  unfold chal spec.bit HashBytesToInt HashProtosToInt intBytes
  simp

theorem checkOne_iff (Hb : Bytes → Bytes) (ssid salt : Bytes) (n s t : Nat) (a z : Bytes) :
    checkOne Hb ssid salt n s t a z = .ok () ↔ spec.Good Hb salt ssid n s t a z := by
  unfold checkOne spec.Good
  simp only
  by_cases h1 : beNat a < n
  swap
  · simp only [h1, false_and, iff_false]
    rw [Res.bind_eq_ok]
    rintro ⟨u, hu, -⟩
    rw [lift_inRange_ok] at hu; omega
  have hn : (0 : Int) < n := by omega
  rw [lift_inRange_ok.mpr ⟨by omega, by exact_mod_cast h1⟩, Res.bind_ok]
  have hc : IsRelativePrime (beNat a : Int) n = true ↔ Nat.Coprime (beNat a) n := by
    rw [IsRelativePrime_iff]; simp [Int.gcd, Nat.Coprime]
  by_cases h2 : Nat.Coprime (beNat a) n
  swap
  · rw [if_pos (by rw [hc]; exact h2)]; simp [h2]
  rw [if_neg (by rw [hc]; exact not_not.mpr h2)]
  by_cases h3 : beNat z < n
  swap
  · simp only [h3, false_and, and_false, iff_false]
    rw [Res.bind_eq_ok]
    rintro ⟨u, hu, -⟩
    rw [lift_inRange_ok] at hu; omega
  rw [lift_inRange_ok.mpr ⟨by omega, by exact_mod_cast h3⟩, Res.bind_ok, chal_eq, bigExp_mod hn (by omega),
    bigExp_mod hn (by omega)]
  simp only [deref, Res.bind_ok, Int.toNat_natCast]
  have key : ((t : Int) ^ beNat z % n = (s : Int) ^ spec.bit Hb salt ssid n s t a % n * beNat a % n) ↔
      t ^ beNat z ≡ s ^ spec.bit Hb salt ssid n s t a * beNat a [MOD n] := by
    rw [Int.mul_emod, Int.emod_emod, ← Int.mul_emod, ← Int.natCast_modEq_iff]
    unfold Int.ModEq
    push_cast
    rfl
  by_cases h4 : (t : Int) ^ beNat z % n = (s : Int) ^ spec.bit Hb salt ssid n s t a % n * beNat a % n
  · rw [if_neg (not_not.mpr h4)]
    simp only [true_iff]
    exact ⟨h1, h2, h3, key.mp h4⟩
  · rw [if_pos h4]
    simp only [reduceCtorEq, false_iff]
    rintro ⟨_, _, _, h⟩
    exact h4 (key.mpr h)

theorem checkLoop_iff (Hb : Bytes → Bytes) (ssid salt : Bytes) (n s t : Nat) : ∀ (as zs : List Bytes),
    checkLoop Hb ssid salt n s t as zs = .ok () ↔
      as.length ≤ zs.length ∧ ∀ i, i < as.length → spec.Good Hb salt ssid n s t (as.getD i []) (zs.getD i [])
  | [], zs => by simp [checkLoop]
  | a :: as, [] => by
    simp only [checkLoop, List.length_cons, List.length_nil]
    constructor
    · intro h
      rw [Res.bind_eq_ok] at h
      obtain ⟨_, _, h⟩ := h
      split at h <;> simp at h
    · rintro ⟨h, -⟩; omega
  | a :: as, z :: zs => by
    simp only [checkLoop]
    rw [Res.bind_eq_ok]
    constructor
    · rintro ⟨u, h1, h2⟩
      rw [checkOne_iff] at h1
      obtain ⟨g1, g2⟩ := (checkLoop_iff Hb ssid salt n s t as zs).mp h2
      refine ⟨by simpa using g1, ?_⟩
      intro i hi
      cases i with
      | zero => exact h1
      | succ i => exact g2 i (by simpa using hi)
    · rintro ⟨g1, g2⟩
      refine ⟨(), (checkOne_iff _ _ _ _ _ _ _ _).mpr (g2 0 (by simp)), ?_⟩
      exact (checkLoop_iff Hb ssid salt n s t as zs).mpr ⟨by simpa using g1, fun i hi => g2 (i + 1) (by simpa using hi)⟩

/-- C43. What acceptance means, exactly, for every message. -/
theorem C43_verify_iff (Hb : Bytes → Bytes) (msg : Msg) (ssid : Bytes) :
    Verify Hb msg ssid = .ok () ↔
      10 ≤ msg.A.length ∧ msg.A.length ≤ msg.Z.length ∧
      ∀ i, i < msg.A.length →
        spec.Good Hb msg.salt ssid (beNat msg.N) (beNat msg.S) (beNat msg.T) (msg.A.getD i []) (msg.Z.getD i []) := by
  unfold Verify MINIMALCHALLENGE
  split
  · next h => simp only [reduceCtorEq, false_iff]; omega
  · next h => rw [checkLoop_iff]; constructor <;> intro g <;> [exact ⟨by omega, g⟩; exact g.2]

/-- C43. Fewer than ten challenges are refused, on both sides. -/
theorem C43_too_few (Hb : Bytes → Bytes) (msg : Msg) (ssid : Bytes) (eulerValue n s t lambda number : Int) (tape : Bytes) :
    (msg.A.length < 10 → Verify Hb msg ssid = .err .tooFewChallenge) ∧
    (number < 10 → New Hb ssid eulerValue n s t lambda number tape = .err .tooFewChallenge) := by
  constructor
  · intro h; unfold Verify MINIMALCHALLENGE; rw [if_pos h]
  · intro h; unfold New MINIMALCHALLENGE; rw [if_pos (by exact_mod_cast h)]

/-- C43. A message with fewer responses than commitments, all present ones good and the first unanswered commitment
well-formed, crashes the verifier. -/
theorem C43_missing_response_crashes (Hb : Bytes → Bytes) (msg : Msg) (ssid : Bytes) (h10 : 10 ≤ msg.A.length)
    (hlt : msg.Z.length < msg.A.length)
    (hgood : ∀ i, i < msg.Z.length →
      spec.Good Hb msg.salt ssid (beNat msg.N) (beNat msg.S) (beNat msg.T) (msg.A.getD i []) (msg.Z.getD i []))
    (hr : beNat (msg.A.getD msg.Z.length []) < beNat msg.N)
    (hc : Nat.Coprime (beNat (msg.A.getD msg.Z.length [])) (beNat msg.N)) :
    Verify Hb msg ssid = .panic := by
  have key : ∀ (as zs : List Bytes), zs.length < as.length →
      (∀ i, i < zs.length → spec.Good Hb msg.salt ssid (beNat msg.N) (beNat msg.S) (beNat msg.T) (as.getD i []) (zs.getD i [])) →
      beNat (as.getD zs.length []) < beNat msg.N → Nat.Coprime (beNat (as.getD zs.length [])) (beNat msg.N) →
      checkLoop Hb ssid msg.salt (beNat msg.N) (beNat msg.S) (beNat msg.T) as zs = .panic := by
    intro as
    induction as with
    | nil => intro zs h; simp at h
    | cons a as ih =>
      intro zs h hg h1 h2
      cases zs with
      | nil =>
        simp only [checkLoop]
        simp only [List.length_nil, List.getD_cons_zero] at h1 h2
        rw [lift_inRange_ok.mpr ⟨by omega, by exact_mod_cast h1⟩, Res.bind_ok, if_neg]
        rw [not_not, IsRelativePrime_iff]
        simpa [Int.gcd, Nat.Coprime] using h2
      | cons z zs =>
        simp only [checkLoop]
        have h0 : spec.Good Hb msg.salt ssid (beNat msg.N) (beNat msg.S) (beNat msg.T) a z := hg 0 (by simp)
        rw [(checkOne_iff _ _ _ _ _ _ _ _).mpr h0, Res.bind_ok]
        exact ih zs (by simpa using h) (fun i hi => hg (i + 1) (by simpa using hi)) (by simpa using h1) (by simpa using h2)
  unfold Verify MINIMALCHALLENGE
  rw [if_neg (by omega)]
  exact key _ _ hlt hgood hr hc

/-! ### Completeness -/

/-- The loop of the prover, for t a unit whose order divides the Euler value. -/
theorem newLoop_good {Hb : Bytes → Bytes} {ssid salt : Bytes} {euler n s t lambda : Nat} (hn : 1 < n)
    (ht : Nat.Coprime t n) (hord : t ^ euler ≡ 1 [MOD n]) (hs : s ≡ t ^ lambda [MOD n]) (hle : euler ≤ n) :
    ∀ (k : Nat) (tape rest : Bytes) (l : List (Bytes × Bytes)),
      newLoop Hb ssid euler n s t lambda salt k tape = .ok (l, rest) →
      l.length = k ∧ ∀ p ∈ l, spec.Good Hb salt ssid n s t p.1 p.2
  | 0, tape, rest, l, h => by
    simp only [newLoop, Res.ok.injEq, Prod.mk.injEq] at h
    obtain ⟨rfl, rfl⟩ := h
    simp
  | k + 1, tape, rest, l, h => by
    simp only [newLoop] at h
    rw [Res.bind_eq_ok] at h
    obtain ⟨⟨ai, rest1⟩, h1, h⟩ := h
    rw [lift_ok] at h1
    obtain ⟨a0, a1⟩ := RandomInt_range h1
    simp only at h
    rw [bigExp_mod (by omega) a0] at h
    simp only [deref, Res.bind_ok] at h
    rw [Res.bind_eq_ok] at h
    obtain ⟨⟨l', rest'⟩, h2, h⟩ := h
    simp only [Res.ok.injEq, Prod.mk.injEq] at h
    obtain ⟨rfl, rfl⟩ := h
    obtain ⟨ih1, ih2⟩ := newLoop_good hn ht hord hs hle k _ _ _ h2
    refine ⟨by simp [ih1], ?_⟩
    intro p hp
    rcases List.mem_cons.mp hp with rfl | hp
    swap
    · exact ih2 p hp
    obtain ⟨a, rfl⟩ := Int.eq_ofNat_of_zero_le a0
    simp only [Int.toNat_natCast]
    have eA : (t : Int) ^ a % n = ((t ^ a % n : ℕ) : Int) := by push_cast; rfl
    rw [eA, chal_eq]
    generalize hb : spec.bit Hb salt ssid n s t (intBytes ((t ^ a % n : ℕ) : Int)) = e
    have eZ : ((a : Int) + e * lambda) % euler = (((a + e * lambda) % euler : ℕ) : Int) := by push_cast; rfl
    rw [eZ]
    have he : 0 < euler := by omega
    unfold spec.Good
    rw [hb]
    simp only [beNat_intBytes, Int.natAbs_natCast]
    refine ⟨Nat.mod_lt _ (by omega), ?_, lt_of_lt_of_le (Nat.mod_lt _ he) hle, ?_⟩
    · unfold Nat.Coprime
      rw [← Nat.gcd_rec n, Nat.gcd_comm]
      exact Nat.Coprime.pow_left a ht
    · have e1 : t ^ ((a + e * lambda) % euler) ≡ t ^ (a + e * lambda) [MOD n] := by
        have : t ^ (a + e * lambda) = t ^ ((a + e * lambda) % euler) * (t ^ euler) ^ ((a + e * lambda) / euler) := by
          rw [← pow_mul, ← pow_add, Nat.mod_add_div]
        rw [this]
        have := (Nat.ModEq.refl (t ^ ((a + e * lambda) % euler))).mul (hord.pow ((a + e * lambda) / euler))
        rw [one_pow, mul_one] at this
        exact this.symm
      refine e1.trans ?_
      have e2 : t ^ (a + e * lambda) = (t ^ lambda) ^ e * t ^ a := by rw [← pow_mul, ← pow_add]; congr 1; ring
      rw [e2]
      exact ((hs.symm.pow e).mul (Nat.mod_modEq _ _).symm)

/-- C43 (completeness). For t a unit of order dividing the Euler value (at most n) and s = t^λ mod n, every message the
prover returns is accepted. -/
theorem C43_complete (Hb : Bytes → Bytes) (ssid : Bytes) (euler n s t lambda : Nat) (number : Int) (tape rest : Bytes)
    (msg : Msg) (hn : 1 < n) (ht : Nat.Coprime t n) (hord : t ^ euler ≡ 1 [MOD n]) (hs : s ≡ t ^ lambda [MOD n])
    (hle : euler ≤ n) (h : New Hb ssid euler n s t lambda number tape = .ok (msg, rest)) :
    Verify Hb msg ssid = .ok () ∧ (msg.A.length : Int) = number := by
  unfold New MINIMALCHALLENGE at h
  split at h
  · simp at h
  next hnum =>
  rw [Res.bind_eq_ok] at h
  obtain ⟨⟨salt, r1⟩, _, h⟩ := h
  rw [Res.bind_eq_ok] at h
  obtain ⟨⟨l, r2⟩, h2, h⟩ := h
  simp only [Res.ok.injEq, Prod.mk.injEq] at h
  obtain ⟨rfl, rfl⟩ := h
  obtain ⟨g1, g2⟩ := newLoop_good hn ht hord hs hle _ _ _ _ h2
  refine ⟨(C43_verify_iff _ _ _).mpr ⟨?_, by simp, ?_⟩, ?_⟩
  · simp only [List.length_map]; omega
  · intro i hi
    simp only [List.length_map] at hi
    simp only [beNat_intBytes, Int.natAbs_natCast]
    rw [List.getD_eq_getElem _ _ (by simpa using hi), List.getD_eq_getElem _ _ (by simpa using hi)]
    simp only [List.getElem_map]
    exact g2 _ (List.getElem_mem _)
  · simp only [List.length_map]; push_cast at hnum; omega

/-- C43. Parameters made from a Paillier key with distinct primes p, q satisfy the hypotheses of completeness as soon as
the base drawn is a unit. -/
theorem C43_parameters (k : Key) (p q : Nat) (hp : p.Prime) (hq : q.Prime) (hne : p ≠ q) (hkp : k.priv.p = p)
    (hkq : k.priv.q = q) (hkn : k.pub.n = ((p * q : ℕ) : Int)) (tape rest : Bytes) (ped : Pedersen)
    (h : NewPedersenParameterByPaillier k tape = .ok (ped, rest)) :
    ∃ (euler n s t lambda tau : Nat), ped.eulern = euler ∧ ped.n = n ∧ ped.s = s ∧ ped.t = t ∧ ped.lambda = lambda ∧
      n = p * q ∧ euler = Nat.totient n ∧ lambda < euler ∧ tau < n ∧ t = tau ^ 2 % n ∧ s = t ^ lambda % n ∧
      (Nat.Coprime tau n → 1 < n ∧ Nat.Coprime t n ∧ t ^ euler ≡ 1 [MOD n] ∧ s ≡ t ^ lambda [MOD n] ∧ euler ≤ n) := by
  have hn : 1 < p * q := Nat.one_lt_mul_iff.2 ⟨hp.pos, hq.pos, .inl hp.one_lt⟩
  unfold NewPedersenParameterByPaillier at h
  rw [Res.bind_eq_ok] at h
  obtain ⟨eul, h1, h⟩ := h
  have heul : eul = ((Nat.totient (p * q) : ℕ) : Int) := by
    have h1' : EulerFunction [(p : Int), (q : Int)] = .ok eul := by rw [← hkp, ← hkq]; exact h1
    have hp1 := hp.one_lt; have hq1 := hq.one_lt
    unfold EulerFunction at h1'
    rw [if_neg (by simp)] at h1'
    simp only [eulerLoop] at h1'
    rw [if_neg (by omega), if_neg (by omega)] at h1'
    simp only [Res.ok.injEq] at h1'
    rw [Nat.totient_mul ((Nat.coprime_primes hp hq).mpr hne), Nat.totient_prime hp, Nat.totient_prime hq, ← h1']
    push_cast [Nat.cast_sub hp.one_le, Nat.cast_sub hq.one_le]
    ring
  rw [Res.bind_eq_ok] at h
  obtain ⟨⟨lam, r1⟩, h2, h⟩ := h
  simp only at h
  rw [Res.bind_eq_ok] at h
  obtain ⟨⟨tau, r2⟩, h3, h⟩ := h
  obtain ⟨l0, l1⟩ := RandomInt_range h2
  obtain ⟨t0, t1⟩ := RandomInt_range h3
  simp only at h
  rw [hkn, bigExp_mod (by omega) (by decide)] at h
  simp only [deref, Res.bind_ok] at h
  rw [bigExp_mod (by omega) l0] at h
  simp only [Res.bind_ok, Res.ok.injEq, Prod.mk.injEq] at h
  obtain ⟨rfl, -⟩ := h
  obtain ⟨lam, rfl⟩ := Int.eq_ofNat_of_zero_le l0
  obtain ⟨tau, rfl⟩ := Int.eq_ofNat_of_zero_le t0
  rw [hkn] at t1
  rw [heul] at l1
  have et : (tau : Int) ^ (2 : Int).toNat % ((p * q : ℕ) : Int) = ((tau ^ 2 % (p * q) : ℕ) : Int) := by
    rw [show (2 : Int).toNat = 2 by rfl]; push_cast; rfl
  refine ⟨Nat.totient (p * q), p * q, (tau ^ 2 % (p * q)) ^ lam % (p * q), tau ^ 2 % (p * q), lam, tau, heul, rfl, ?_, et, rfl,
    rfl, rfl, by exact_mod_cast l1, by exact_mod_cast t1, rfl, rfl, ?_⟩
  · simp only [et, Int.toNat_natCast]; push_cast; rfl
  · intro hc
    have htc : Nat.Coprime (tau ^ 2 % (p * q)) (p * q) := by
      unfold Nat.Coprime
      rw [← Nat.gcd_rec (p * q), Nat.gcd_comm]
      exact Nat.Coprime.pow_left 2 hc
    exact ⟨hn, htc, Nat.ModEq.pow_totient htc, Nat.mod_modEq _ _, Nat.totient_le _⟩

/-! ### Soundness -/

/-- C43 (special soundness). Two accepted answers to the same commitment with different challenge bits (different salts or
sessions) put s in the group generated by t. -/
theorem C43_special_soundness (Hb : Bytes → Bytes) (salt salt' ssid ssid' : Bytes) (n s t : Nat) (a z z' : Bytes)
    (h1 : spec.Good Hb salt ssid n s t a z) (h2 : spec.Good Hb salt' ssid' n s t a z')
    (hb : spec.bit Hb salt ssid n s t a = 1) (hb' : spec.bit Hb salt' ssid' n s t a = 0) :
    t ^ beNat z ≡ s * t ^ beNat z' [MOD n] := by
  obtain ⟨-, -, -, e1⟩ := h1
  obtain ⟨-, -, -, e2⟩ := h2
  rw [hb, pow_one] at e1
  rw [hb', pow_zero, one_mul] at e2
  exact e1.trans (e2.symm.mul_left s)

/-- C43 (a deviation from CGGMP). Each challenge bit hashes its own commitment only, without index, so one accepted pair
may be repeated: the number of challenges adds nothing. -/
theorem C43_repetition (Hb : Bytes → Bytes) (salt ssid : Bytes) (n s t : Nat) (a z : Bytes)
    (h : spec.Good Hb salt ssid n s t a z) (k : Nat) (hk : 10 ≤ k) :
    Verify Hb ⟨List.replicate k z, List.replicate k a, natBE n, natBE s, natBE t, salt⟩ ssid = .ok () := by
  refine (C43_verify_iff _ _ _).mpr ⟨by simpa using hk, by simp, ?_⟩
  intro i hi
  simp only [List.length_replicate] at hi
  simp only [beNat_natBE]
  rw [List.getD_eq_getElem _ _ (by simpa using hi), List.getD_eq_getElem _ _ (by simpa using hi),
    List.getElem_replicate, List.getElem_replicate]
  exact h

/-- C43 (forgery). For any n > 1, any unit t and ANY s — in the group generated by t or not — a single exponent z below n
whose commitment t^z mod n hashes to an even number yields accepted messages of every length, without any knowledge
of a discrete logarithm. -/
theorem C43_forgery (Hb : Bytes → Bytes) (salt ssid : Bytes) (n s t z : Nat) (hn : 1 < n) (ht : Nat.Coprime t n)
    (hz : z < n) (heven : spec.bit Hb salt ssid n s t (natBE (t ^ z % n)) = 0) (k : Nat) (hk : 10 ≤ k) :
    Verify Hb ⟨List.replicate k (natBE z), List.replicate k (natBE (t ^ z % n)), natBE n, natBE s, natBE t, salt⟩ ssid
      = .ok () := by
  refine C43_repetition Hb salt ssid n s t _ _ ⟨?_, ?_, ?_, ?_⟩ k hk
  · rw [beNat_natBE]; exact Nat.mod_lt _ (by omega)
  · rw [beNat_natBE]
    unfold Nat.Coprime
    rw [← Nat.gcd_rec n, Nat.gcd_comm]
    exact Nat.Coprime.pow_left z ht
  · rwa [beNat_natBE]
  · rw [heven, beNat_natBE, beNat_natBE, pow_zero, one_mul]
    exact (Nat.mod_modEq _ _).symm

/-- Non-vacuity of the forgery: n = 35, t = 4, s = 2 (a non-residue, so outside the group of 4 = 2²), hash constantly 0. -/
example : Verify (fun _ => [0]) ⟨List.replicate 80 (natBE 3), List.replicate 80 (natBE (4 ^ 3 % 35)), natBE 35, natBE 2,
    natBE 4, []⟩ [] = .ok () :=
  C43_forgery _ [] [] 35 2 4 3 (by decide) (by decide) (by decide) rfl 80 (by decide)

/-- Non-vacuity of completeness: n = 35, t = 4, λ = 5, s = 4^5 mod 35 = 9, ten challenges. -/
example : ∃ msg rest tape, New (fun _ => [1]) [] (24 : ℕ) (35 : ℕ) (9 : ℕ) (4 : ℕ) (5 : ℕ) 10 tape = .ok (msg, rest) ∧
    Verify (fun _ => [1]) msg [] = .ok () := by
  have hok : (New (fun _ => [1]) [] (24 : ℕ) (35 : ℕ) (9 : ℕ) (4 : ℕ) (5 : ℕ) 10 (List.replicate 200 3)).isOk = true := by
    decide +kernel
  cases h : New (fun _ => [1]) [] (24 : ℕ) (35 : ℕ) (9 : ℕ) (4 : ℕ) (5 : ℕ) 10 (List.replicate 200 3) with
  | ok r =>
    obtain ⟨msg, rest⟩ := r
    refine ⟨msg, rest, _, h, ?_⟩
    exact (C43_complete (fun _ => [1]) [] 24 35 9 4 5 10 _ rest msg (by decide) (by decide) (by decide) (by decide) (by decide) h).1
  | err e => rw [h] at hok; simp [Res.isOk] at hok
  | panic => rw [h] at hok; simp [Res.isOk] at hok

end Tss.RingPed
