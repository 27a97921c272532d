import Verif.Model.Schnorr
import Verif.Lemmas.EC
import Mathlib.Data.Int.GCD
import Mathlib.RingTheory.Int.Basic
import Mathlib.Data.Nat.Prime.Basic
import Mathlib.Data.Nat.Prime.Int
import Mathlib.Tactic.NormNum.Prime
/-
Properties C28, C29 (crypto/schnorr/schnorr_proof.go).
-/
namespace Tss.Schnorr
open Tss ECPoint

variable {c : Curve} {G : Type} [AddCommGroup G]

/-! ## exact meaning of the verifier -/

/-- C29: on valid points the verifier never panics and accepts exactly when `z·G = A + c·X` in the group
(with the challenge reduced modulo N, as the code does). -/
theorem C29_verify_exact (L : Lawful c G) (z ch : Int) (A X : ECPoint) (hA : c.On A) (hX : c.On X) :
    ∃ b, Verify c z A X ch = .ok b ∧ (b = true ↔ z • L.base = L.val A + (ch % c.N) • L.val X) := by
  unfold Verify
  simp only [L.scalarMult_pt hX, L.add_pt hA (L.on_pt _), L.scalarBaseMult_pt, L.val_pt]
  refine ⟨_, rfl, ?_⟩
  rw [Bool.and_eq_true, decide_eq_true_eq, decide_eq_true_eq]
  constructor
  · rintro ⟨h1, h2⟩
    have : L.pt (L.val A + (ch % c.N) • L.val X) = L.pt (z • L.base) := by
      rw [ECPoint.mk.injEq]; exact ⟨h1, h2⟩
    exact (L.pt_inj.mp this).symm
  · intro h; rw [h]; exact ⟨rfl, rfl⟩

/-- The challenge of a proof that binds a session, the statement and the commitment: the tagged hash of the coordinates,
reduced modulo N.  (Specification, written without the model's own helper.) -/
def spec_challenge (H : Bytes → Bytes) (c : Curve) (session : Bytes) (pts : List ECPoint) : Int :=
  (Common.SHA512_256i_TAGGED H session (pts.flatMap fun p => [some p.x, some p.y])).getD 0 % c.N

/-- C29: the standalone proof of a discrete logarithm: on valid points it is accepted exactly when `T·G = Alpha + ch·X` for
the challenge computed from session, X, G and Alpha. -/
theorem C29_zkproof_exact (L : Lawful c G) (H : Bytes → Bytes) (session : Bytes) (pf : ZKProof) (X : ECPoint)
    (hA : c.On pf.Alpha) (hX : c.On X) :
    ∃ b, pf.verify H c session X = .ok b ∧
      (b = true ↔ pf.T • L.base = L.val pf.Alpha + spec_challenge H c session [X, ⟨c.Gx, c.Gy⟩, pf.Alpha] • L.val X) := by
  obtain ⟨b, hb, hiff⟩ := C29_verify_exact L pf.T (zkChallenge H c session X pf.Alpha) pf.Alpha X hA hX
  refine ⟨b, ?_, ?_⟩
  · rw [← hb]; rfl
  · rw [hiff]
    have : zkChallenge H c session X pf.Alpha % c.N = spec_challenge H c session [X, ⟨c.Gx, c.Gy⟩, pf.Alpha] := by
      unfold zkChallenge spec_challenge
      rw [Int.emod_emod_of_dvd _ (dvd_refl _)]; rfl
    rw [this]

/-- C29: the proof of a representation `V = s·R + l·G`: for valid V and R and *every* proof, the verifier does not crash and
accepts exactly when the commitment is on the curve and `T·R + U·G = Alpha + ch·V`, scalars of R and V reduced modulo N. -/
theorem C29_zkv_exact (L : Lawful c G) (H : Bytes → Bytes) (session : Bytes) (pf : ZKVProof) (V R : ECPoint)
    (hV : c.On V) (hR : c.On R) :
    ∃ b, pf.verify H c session V R = .ok b ∧
      (b = true ↔ c.isOnCurve pf.Alpha.x pf.Alpha.y = true ∧ (pf.T % c.N) • L.val R + pf.U • L.base =
        L.val pf.Alpha + spec_challenge H c session [V, R, ⟨c.Gx, c.Gy⟩, pf.Alpha] • L.val V) := by
  unfold ZKVProof.verify
  by_cases hA : c.isOnCurve pf.Alpha.x pf.Alpha.y = true
  · have hA' : c.On pf.Alpha := hA
    have ech : zkvChallenge H c session V R pf.Alpha % c.N = spec_challenge H c session [V, R, ⟨c.Gx, c.Gy⟩, pf.Alpha] := by
      unfold zkvChallenge spec_challenge
      rw [Int.emod_emod_of_dvd _ (dvd_refl _)]; rfl
    simp only [validateBasic, hA, Bool.not_true, Bool.false_eq_true, if_false, L.scalarMult_pt hR, L.scalarBaseMult_pt,
      L.scalarMult_pt hV, L.add_pt hA' (L.on_pt _), L.add_pt (L.on_pt _) (L.on_pt _), L.val_pt, ech]
    refine ⟨_, rfl, ?_⟩
    rw [Bool.and_eq_true, decide_eq_true_eq, decide_eq_true_eq]
    constructor
    · rintro ⟨h1, h2⟩
      refine ⟨trivial, L.pt_inj.mp ?_⟩
      rw [ECPoint.mk.injEq]; exact ⟨h1, h2⟩
    · rintro ⟨-, h⟩; rw [h]; exact ⟨rfl, rfl⟩
  · have hA' : c.isOnCurve pf.Alpha.x pf.Alpha.y = false := by simpa using hA
    simp only [validateBasic, hA', Bool.not_false, if_true]
    exact ⟨false, rfl, by simp⟩

/-! ## C28 -/

/-- C28: the response of `Prove` for secret `x` and nonce `a` is accepted for the public points
`x·G` and `a·G`, for every challenge. -/
theorem C28_prove_verify (L : Lawful c G) (x a ch : Int) (X A : ECPoint)
    (hX : scalarBaseMult c x = some X) (hA : scalarBaseMult c a = some A) :
    Verify c (Prove c.N a ch x) A X ch = .ok true := by
  rw [L.scalarBaseMult_pt] at hX hA
  simp only [Option.some.injEq] at hX hA
  subst hX hA
  obtain ⟨b, hb, hiff⟩ := C29_verify_exact L (Prove c.N a ch x) ch _ _ (L.on_pt (a • L.base)) (L.on_pt (x • L.base))
  rw [hb, hiff.mpr]
  unfold Prove
  have hx : c.N • (x • L.base) = 0 := by rw [smul_comm, L.N_base, smul_zero]
  rw [L.val_pt, L.val_pt, Lawful.emod_smul L.N_base, Lawful.emod_smul hx, add_smul, mul_smul]

/-- C28: and the response is a canonical scalar. -/
theorem C28_response_range (q a ch x : Int) (hq : 0 < q) : 0 ≤ Prove q a ch x ∧ Prove q a ch x < q :=
  ⟨Int.emod_nonneg _ (by omega), Int.emod_lt_of_pos _ hq⟩

/-- C28: `NewZKProof` on `X = x·G` succeeds and its proof verifies, for every hash, session and nonce. -/
theorem C28_zkproof (L : Lawful c G) (H : Bytes → Bytes) (session : Bytes) (x a : Int) (X : ECPoint)
    (hX : scalarBaseMult c x = some X) :
    ∃ pf, NewZKProof H c session x X a = .ok pf ∧ pf.verify H c session X = .ok true := by
  rw [L.scalarBaseMult_pt] at hX
  simp only [Option.some.injEq] at hX
  subst hX
  have hon : c.isOnCurve (L.pt (x • L.base)).x (L.pt (x • L.base)).y = true := L.on_pt _
  unfold NewZKProof
  simp only [validateBasic, hon, L.scalarBaseMult_pt, Bool.not_true, Bool.false_eq_true, if_false]
  refine ⟨_, rfl, ?_⟩
  generalize hch : zkChallenge H c session (L.pt (x • L.base)) (L.pt (a • L.base)) = ch
  have hv := C28_prove_verify L x a ch (L.pt (x • L.base)) (L.pt (a • L.base)) (L.scalarBaseMult_pt x) (L.scalarBaseMult_pt a)
  unfold Verify Prove at hv
  unfold ZKProof.verify
  simp only [hch]
  exact hv

/-- C28: the responses in both kinds of proofs are canonical scalars. -/
theorem C28_zk_response_range (hN : 0 < c.N) (H : Bytes → Bytes) (session : Bytes) :
    (∀ x X a pf, NewZKProof H c session x X a = .ok pf → 0 ≤ pf.T ∧ pf.T < c.N) ∧
    (∀ V R s l a b pf, NewZKVProof H c session V R s l a b = .ok pf → (0 ≤ pf.T ∧ pf.T < c.N) ∧ 0 ≤ pf.U ∧ pf.U < c.N) := by
  have r : ∀ z : Int, 0 ≤ z % c.N ∧ z % c.N < c.N := fun z => ⟨Int.emod_nonneg _ (by omega), Int.emod_lt_of_pos _ hN⟩
  constructor
  · intro x X a pf h
    unfold NewZKProof at h
    split at h
    · cases h
    · split at h
      · cases h
      · cases h; exact r _
  · intro V R s l a b pf h
    unfold NewZKVProof at h
    split at h
    · cases h
    · split at h
      · split at h
        · cases h; exact ⟨r _, r _⟩
        · cases h
      · cases h

/-- C28: `NewZKVProof` for `V = s·R + l·G` with `R` in the subgroup succeeds and verifies. -/
theorem C28_zkvproof (L : Lawful c G) (H : Bytes → Bytes) (session : Bytes) (s l a b : Int) (V R sR lG : ECPoint)
    (hR : c.On R) (hRN : c.N • L.val R = 0)
    (h1 : scalarMult c R s = some sR) (h2 : scalarBaseMult c l = some lG) (hV : ECPoint.add c sR lG = some V) :
    ∃ pf, NewZKVProof H c session V R s l a b = .ok pf ∧ pf.verify H c session V R = .ok true := by
  have key : ∀ k, scalarMult c R k = some (L.pt (k • L.val R)) := by
    intro k; rw [L.scalarMult_pt hR, Lawful.emod_smul hRN]
  rw [key] at h1
  rw [L.scalarBaseMult_pt] at h2
  simp only [Option.some.injEq] at h1 h2
  subst h1 h2
  rw [L.add_pt (L.on_pt _) (L.on_pt _), L.val_pt, L.val_pt] at hV
  simp only [Option.some.injEq] at hV
  have hVon : c.On V := hV ▸ L.on_pt _
  have hVval : L.val V = s • L.val R + l • L.base := by rw [← hV, L.val_pt]
  have hVN : c.N • L.val V = 0 := by
    rw [hVval, smul_add, smul_comm, hRN, smul_zero, smul_comm, L.N_base, smul_zero, add_zero]
  have hVc : c.isOnCurve V.x V.y = true := hVon
  have hRc : c.isOnCurve R.x R.y = true := hR
  unfold NewZKVProof
  simp only [validateBasic, hVc, hRc, Bool.not_true, Bool.or_self, Bool.false_eq_true, if_false, key,
    L.scalarBaseMult_pt, L.add_pt (L.on_pt _) (L.on_pt _), L.val_pt]
  refine ⟨_, rfl, ?_⟩
  generalize hch : zkvChallenge H c session V R (L.pt (a • L.val R + b • L.base)) = ch
  have hon : c.isOnCurve (L.pt (a • L.val R + b • L.base)).x (L.pt (a • L.val R + b • L.base)).y = true := L.on_pt _
  unfold ZKVProof.verify
  simp only [validateBasic, hon, hch, key, L.scalarBaseMult_pt, L.add_pt (L.on_pt _) (L.on_pt _), L.val_pt,
    Bool.not_true, Bool.false_eq_true, if_false, L.scalarMult_pt hVon, Lawful.emod_smul hVN,
    Lawful.emod_smul hRN, Lawful.emod_smul L.N_base]
  have e : (a + ch * s) • L.val R + (b + ch * l) • L.base = a • L.val R + b • L.base + ch • L.val V := by
    rw [hVval, add_smul, add_smul, mul_smul, mul_smul, smul_add]; abel
  rw [e]
  simp

/-! ## C29 -/

/-- C29: special soundness.  If N is prime and X is in the order-N subgroup, two accepted responses for
the same commitment under challenges that differ modulo N reveal the discrete logarithm of X. -/
theorem C29_special_soundness (L : Lawful c G) (hprime : Nat.Prime c.N.toNat) (A X : ECPoint)
    (hA : c.On A) (hX : c.On X) (hXN : c.N • L.val X = 0) (z1 z2 c1 c2 : Int)
    (hne : ¬ c1 ≡ c2 [ZMOD c.N])
    (h1 : Verify c z1 A X c1 = .ok true) (h2 : Verify c z2 A X c2 = .ok true) :
    ∃ inv : Int, inv * (c1 - c2) ≡ 1 [ZMOD c.N] ∧ L.val X = ((z1 - z2) * inv) • L.base := by
  obtain ⟨b1, e1, i1⟩ := C29_verify_exact L z1 c1 A X hA hX
  obtain ⟨b2, e2, i2⟩ := C29_verify_exact L z2 c2 A X hA hX
  rw [h1] at e1; rw [h2] at e2
  simp only [Res.ok.injEq] at e1 e2
  have q1 := i1.mp e1.symm
  have q2 := i2.mp e2.symm
  rw [Lawful.emod_smul hXN] at q1 q2
  have hNp : Prime c.N := by
    have := Nat.prime_iff_prime_int.mp hprime
    rwa [Int.toNat_of_nonneg (le_of_lt L.N_pos)] at this
  have hcop : IsCoprime (c1 - c2) c.N := by
    rw [isCoprime_comm]
    refine (Prime.coprime_iff_not_dvd hNp).mpr ?_
    intro hd
    apply hne
    have := Int.modEq_iff_dvd.mpr hd
    exact this.symm
  obtain ⟨u, v, huv⟩ := hcop
  refine ⟨u, ?_, ?_⟩
  · rw [Int.modEq_iff_dvd]
    exact ⟨v, by linarith⟩
  · have hd : (z1 - z2) • L.base = (c1 - c2) • L.val X := by
      rw [sub_smul, q1, q2, sub_smul]; abel
    rw [mul_comm, mul_smul, hd, ← mul_smul]
    have : u * (c1 - c2) = 1 - v * c.N := by linarith
    rw [this, sub_smul, one_smul, mul_smul, hXN, smul_zero, sub_zero]

/-- C29, without the subgroup assumption: in a group of exponent 8N the two transcripts still determine
`8·X` as a known multiple of the base point (the torsion part of X is not controlled). -/
theorem C29_special_soundness_cofactor (L : Lawful c G) (hprime : Nat.Prime c.N.toNat)
    (hexp : ∀ g : G, (8 * c.N) • g = 0) (A X : ECPoint) (hA : c.On A) (hX : c.On X) (z1 z2 c1 c2 : Int)
    (hne : ¬ c1 ≡ c2 [ZMOD c.N])
    (h1 : Verify c z1 A X c1 = .ok true) (h2 : Verify c z2 A X c2 = .ok true) :
    ∃ inv : Int, inv * (c1 - c2) ≡ 1 [ZMOD c.N] ∧ (8 : Int) • L.val X = (8 * ((z1 - z2) * inv)) • L.base := by
  obtain ⟨b1, e1, i1⟩ := C29_verify_exact L z1 c1 A X hA hX
  obtain ⟨b2, e2, i2⟩ := C29_verify_exact L z2 c2 A X hA hX
  rw [h1] at e1; rw [h2] at e2
  simp only [Res.ok.injEq] at e1 e2
  have q1 := i1.mp e1.symm
  have q2 := i2.mp e2.symm
  have h8N : c.N • ((8 : Int) • L.val X) = 0 := by rw [← mul_smul, mul_comm, hexp]
  have hNp : Prime c.N := by
    have := Nat.prime_iff_prime_int.mp hprime
    rwa [Int.toNat_of_nonneg (le_of_lt L.N_pos)] at this
  have hcop : IsCoprime (c1 - c2) c.N := by
    rw [isCoprime_comm]
    refine (Prime.coprime_iff_not_dvd hNp).mpr ?_
    intro hd
    exact hne (Int.modEq_iff_dvd.mpr hd).symm
  obtain ⟨u, v, huv⟩ := hcop
  refine ⟨u, ?_, ?_⟩
  · rw [Int.modEq_iff_dvd]
    exact ⟨v, by linarith⟩
  have hd : (z1 - z2) • L.base = (c1 % c.N - c2 % c.N) • L.val X := by
    rw [sub_smul, q1, q2, sub_smul]; abel
  have hd8 : (8 * (z1 - z2)) • L.base = (c1 - c2) • ((8 : Int) • L.val X) := by
    rw [mul_smul, hd, smul_comm, sub_smul, Lawful.emod_smul h8N, Lawful.emod_smul h8N, sub_smul]
  have e : 8 * ((z1 - z2) * u) = u * (8 * (z1 - z2)) := by ring
  rw [e, mul_smul u, hd8, ← mul_smul u]
  have : u * (c1 - c2) = 1 - v * c.N := by linarith
  rw [this, sub_smul, one_smul, mul_smul v, h8N, smul_zero, sub_zero]

/-- Finding: the verifier does not force the public point into the prime-order subgroup: a point with a
torsion part and a "proof" made without adjusting anything is accepted for suitable challenges. -/
theorem C29_torsion_accepted : ∃ (X A : ECPoint) (z ch : Int), toyCurve.On X ∧ toyCurve.On A ∧
    toyCurve.N • toyLawful.val X ≠ 0 ∧ Verify toyCurve z A X ch = .ok true :=
  ⟨⟨3, 4⟩, ⟨5, 0⟩, 0, 2, by decide, by decide, by decide, by decide⟩

/-- Non-vacuity: a secret, nonce and two challenges on the toy curve. -/
example : Nat.Prime toyCurve.N.toNat ∧ scalarBaseMult toyCurve 7 = some ⟨7, 0⟩ ∧
    Verify toyCurve (Prove 11 4 3 7) ⟨4, 0⟩ ⟨7, 0⟩ 3 = .ok true ∧
    Verify toyCurve (Prove 11 4 5 7) ⟨4, 0⟩ ⟨7, 0⟩ 5 = .ok true ∧
    Verify toyCurve (Prove 11 4 5 7) ⟨4, 0⟩ ⟨7, 0⟩ 3 = .ok false ∧
    ¬ (3 : Int) ≡ 5 [ZMOD toyCurve.N] := by
  refine ⟨by show Nat.Prime 11; norm_num, by decide, by decide, by decide, by decide, by decide⟩

end Tss.Schnorr
