
import Verif.Props.Compact
/-
C87: private keys and Diffie-Hellman.
-/
namespace Tss.Secp
open Tss spec

/-! ### C87 -/

/-- C87: `PrivKeyFromBytes` takes the number the bytes denote, of whatever size, and its public half is D·G - which is (0, 0), no
point of the curve, exactly if N divides D: nothing is checked. -/
theorem C87_from_bytes (pk : Bytes) :
    (privKeyFromBytes pk).D = beNat pk ∧ affine ((privKeyFromBytes pk).D • B) = ((privKeyFromBytes pk).X, (privKeyFromBytes pk).Y) ∧
    (s256.isOnCurve (privKeyFromBytes pk).X (privKeyFromBytes pk).Y = false ↔ N ∣ (privKeyFromBytes pk).D) ∧
    ((privKeyFromBytes pk).X = 0 ∧ (privKeyFromBytes pk).Y = 0 ↔ N ∣ (privKeyFromBytes pk).D) := by
  have e : s256.scalarBaseMult pk = affine ((beNat pk : Int) • B) := by
    refine (scalarBaseMult_spec _).trans ?_
    rw [← natCast_zsmul, affine_coords]
  unfold privKeyFromBytes
  simp only
  rw [e]
  have hz : (beNat pk : Int) • B = 0 ↔ N ∣ (beNat pk : Int) := C74_group_order.2.2.2.1 B G_ne_zero _
  refine ⟨trivial, rfl, ?_, ?_⟩
  · rw [← hz]
    constructor
    · intro h
      by_contra hne
      have := coords_on hne
      rw [← affine_coords] at this
      change isOnCurve _ _ = false at h
      rw [this] at h
      cases h
    · intro h
      rw [h]
      exact off_zero
  · rw [← hz]; exact affine_zero_iff _

/-- C87: `Serialize` and `PrivKeyFromBytes` are inverse to each other on 32 bytes, that is on D < 2^256. -/
theorem C87_serialize_round_trip :
    (∀ pk : Bytes, pk.length = 32 → (privKeyFromBytes pk).serialize = pk) ∧
    (∀ pk : Bytes, (beNat pk : Int) < 2 ^ 256 → (privKeyFromBytes pk).serialize.length = 32 ∧
      privKeyFromBytes (privKeyFromBytes pk).serialize = privKeyFromBytes pk) ∧
    (∀ pk : Bytes, 2 ^ 256 ≤ (beNat pk : Int) → 32 < (privKeyFromBytes pk).serialize.length) := by
  refine ⟨fun pk h => padded_of h, fun pk h => ?_, fun pk h => ?_⟩
  · have hs : (privKeyFromBytes pk).serialize = padded 32 (intBytes (beNat pk : Int)) := rfl
    obtain ⟨l, e⟩ := padded_int (x := (beNat pk : Int)) (by omega) h
    rw [hs]
    refine ⟨l, ?_⟩
    unfold privKeyFromBytes
    simp only
    have hb : s256.scalarBaseMult (padded 32 (intBytes (beNat pk : Int))) = s256.scalarBaseMult pk := by
      refine (scalarBaseMult_spec _).trans ((scalarBaseMult_spec _).trans ?_).symm
      have : beNat (padded 32 (intBytes (beNat pk : Int))) = beNat pk := by exact_mod_cast e
      rw [this]
    rw [hb, e]
  · have hs : (privKeyFromBytes pk).serialize = padded 32 (intBytes (beNat pk : Int)) := rfl
    rw [hs]
    unfold padded
    rw [List.length_append]
    have : 32 < (intBytes (beNat pk : Int)).length := by
      unfold intBytes
      apply natBE_length_gt
      rw [Int.natAbs_natCast]
      have h' : 2 ^ 256 ≤ beNat pk := by exact_mod_cast h
      exact le_trans (by decide) h'
    omega

theorem sharedSecret_spec {D : Int} (hD : 0 ≤ D) {Q : Secp256k1.Point} {A : ECPoint} (hA : affine Q = (A.x, A.y)) :
    sharedSecret D A = intBytes (affine (D • Q)).1 := by
  unfold sharedSecret
  rw [sm_int hD hA]

/-- C87: what two parties agree on: the minimal bytes - at most 32, leading zeros dropped - of the x-coordinate of ab·G, the same on
both sides. -/
theorem C87_ecdh (a b : Int) (ha : 0 ≤ a) (hb : 0 ≤ b) (A A' : ECPoint) (hA : affine (a • B) = (A.x, A.y))
    (hA' : affine (b • B) = (A'.x, A'.y)) :
    sharedSecret a A' = sharedSecret b A ∧ (beNat (sharedSecret a A') : Int) = (affine ((a * b) • B)).1 ∧
    (sharedSecret a A').length ≤ 32 ∧ (sharedSecret a A').head? ≠ some 0 := by
  have e1 : sharedSecret a A' = intBytes (affine ((a * b) • B)).1 := by
    rw [sharedSecret_spec ha hA', mul_zsmul]
  have e2 : sharedSecret b A = intBytes (affine ((a * b) • B)).1 := by
    rw [sharedSecret_spec hb hA, mul_comm, mul_zsmul]
  rw [e1, e2]
  obtain ⟨⟨x0, x1⟩, -⟩ := affine_range ((a * b) • B)
  generalize (affine ((a * b) • B)).1 = x at *
  refine ⟨rfl, ?_, ?_, ?_⟩
  · rw [beNat_intBytes]; omega
  · unfold intBytes
    exact natBE_length_le _ _ (by have := p_lt; norm_num at this ⊢; omega)
  · exact natBE_head _

/-- C87, deviation: the opposite key gives the same secret, so does the opposite private key. -/
theorem C87_ecdh_opposite (D : Int) (hD : 0 ≤ D) (Q : Secp256k1.Point) (A A' : ECPoint) (hA : affine Q = (A.x, A.y))
    (hA' : affine (-Q) = (A'.x, A'.y)) : sharedSecret D A' = sharedSecret D A ∧ (D ≤ N → sharedSecret (N - D) A = sharedSecret D A) := by
  rw [sharedSecret_spec hD hA, sharedSecret_spec hD hA']
  constructor
  · rw [zsmul_neg, affine_neg_fst]
  · intro h
    rw [sharedSecret_spec (by omega) hA, sub_zsmul, N_smul]
    change intBytes (affine (0 + -(D • Q))).1 = _
    rw [zero_add, affine_neg_fst]

/-- No point of the curve has x = 0: 7 is no square modulo P. -/
theorem abscissa_ne_zero {x y : ZMod p} (h : y ^ 2 = x ^ 3 + 7) : x ≠ 0 := by
  rintro rfl
  have h7 : y ^ 2 = 7 := by rw [h]; ring
  have hy := y_ne_zero h
  have h1 := ZMod.pow_card_sub_one_eq_one hy
  have e : p - 1 = 2 * ((p - 1) / 2) := by decide +kernel
  rw [e, pow_mul, h7] at h1
  have c : ((powMod 7 ((p - 1) / 2) p : ℕ) : ZMod p) = 1 := by
    rw [powMod_eq, ZMod.natCast_mod]; push_cast; exact h1
  have c' : ((powMod 7 ((p - 1) / 2) p : ℕ) : ZMod p) = ((1 : ℕ) : ZMod p) := by rw [c]; simp
  rw [ZMod.natCast_eq_natCast_iff] at c'
  exact absurd c' (by unfold Nat.ModEq; decide +kernel)

/-- C87: the secret is empty exactly if D·Q is the point at infinity. -/
theorem C87_ecdh_empty (D : Int) (hD : 0 ≤ D) (Q : Secp256k1.Point) (hQ : Q ≠ 0) (A : ECPoint) (hA : affine Q = (A.x, A.y)) :
    sharedSecret D A = [] ↔ N ∣ D := by
  have hz : D • Q = 0 ↔ N ∣ D := C74_group_order.2.2.2.1 Q hQ D
  rw [sharedSecret_spec hD hA, intBytes_eq_nil, ← hz]
  constructor
  · intro h
    by_contra hne
    rw [affine_coords] at h
    rcases point_cases (D • Q) with e | ⟨x, y, hxy, e⟩
    · exact hne e
    · rw [e, coords_pt] at h
      have hx : (x.val : Int) = 0 := h
      have hx' : x = 0 := (ZMod.val_eq_zero x).1 (by omega)
      exact abscissa_ne_zero hxy hx'
  · intro h
    rw [h]; rfl

end Tss.Secp
