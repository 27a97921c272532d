import Verif.Model.SecpS256
import Verif.Lemmas.SecpTable
import Verif.Lemmas.SecpZero
import Verif.Props.CkdBip32
/-
C73 and C74: the operations of the curve returned by tss.S256() are the group operations of secp256k1.
-/
namespace Tss.Secp
open Tss

namespace spec

/-- The field modulus; its value is stated in `C73_curve`. -/
abbrev P : Nat := p

/-- secp256k1: y² = x³ + 7 over Z/P (see `C73_curve`); `Secp256k1.Point` is Mathlib's group of its points. -/
abbrev Secp256k1 : WeierstrassCurve.Affine (ZMod p) := E

/-- How Go represents a point: the coordinates in [0, P), and (0, 0) for the point at infinity. -/
def affine : Secp256k1.Point → Int × Int
  | .zero => (0, 0)
  | .some x y _ => ((x.val : Int), (y.val : Int))

end spec

open spec

theorem res_val (x : ZMod p) : res (x.val : Int) = x := by
  unfold res intBytes
  have hl : (natBE (x.val : Int).natAbs).length ≤ 32 := natBE_length_le _ _ (by
    have := ZMod.val_lt x
    have h : p < 256 ^ 32 := by decide +kernel
    simp only [Int.natAbs_natCast]; omega)
  rw [List.take_of_length_le hl, beNat_natBE, Int.natAbs_natCast, ZMod.natCast_zmod_val]

theorem toG_coords (g : E.Point) : toG (coords g).1 (coords g).2 = g := by
  rcases point_cases g with rfl | ⟨x, y, h, rfl⟩
  · have z : res 0 = 0 := by have := res_val 0; simpa using this
    unfold toG
    rw [coords_zero, dif_neg]
    simp only [z]
    intro h
    exact y_ne_zero (x := 0) (y := 0) h rfl
  · rw [coords_pt]
    simp only
    unfold toG
    rw [dif_pos (by rw [res_val, res_val]; exact h)]
    exact pt_congr (res_val _) (res_val _)

theorem coords_on {g : E.Point} (h : g ≠ 0) : isOnCurve (coords g).1 (coords g).2 = true := by
  rcases point_cases g with rfl | ⟨x, y, h', rfl⟩
  · exact absurd rfl h
  · rw [isOnCurve_iff, coords_pt]
    simp only
    rw [res_val, res_val]; exact h'

theorem off_zero : isOnCurve 0 0 = false := by
  rw [← Bool.not_eq_true, isOnCurve_iff]
  have z : res 0 = 0 := by have := res_val 0; simpa using this
  rw [z]
  intro h
  exact y_ne_zero (x := 0) (y := 0) h rfl

theorem add_spec' {x y x' y' : Int} (h : isOnCurve x y = true) (h' : isOnCurve x' y' = true) :
    add x y x' y' = coords (toG x y + toG x' y') := by
  have n1 : ¬(x = 0 ∧ y = 0) := by rintro ⟨rfl, rfl⟩; rw [off_zero] at h; cases h
  have n2 : ¬(x' = 0 ∧ y' = 0) := by rintro ⟨rfl, rfl⟩; rw [off_zero] at h'; cases h'
  obtain ⟨c1, e1⟩ := toG_on h
  obtain ⟨c2, e2⟩ := toG_on h'
  unfold add
  rw [if_neg n1, if_neg n2, e1, e2]
  exact toAffine_rep (addJacobian_rep
    (affine_rep ((toField_rp x).mono (by norm_num)) ((toField_rp y).mono (by norm_num)) c1)
    (affine_rep ((toField_rp x').mono (by norm_num)) ((toField_rp y').mono (by norm_num)) c2))

theorem coords_eq_zero {g : E.Point} (h : (coords g).1 = 0 ∧ (coords g).2 = 0) : g = 0 := by
  by_contra hg
  have := coords_on hg
  rw [h.1, h.2, off_zero] at this
  cases this

theorem base_coords : coords G = (Gx, Gy) := by
  unfold G
  rw [coords_pt, ZMod.val_natCast, ZMod.val_natCast]
  decide +kernel

/-! ### C73: points and addition -/

/-- C73: what the curve is: y² = x³ + 7 modulo the prime 2²⁵⁶ - 2³² - 977. -/
theorem C73_curve : P = 2 ^ 256 - 2 ^ 32 - 977 ∧ Nat.Prime P ∧
    Secp256k1 = { a₁ := 0, a₂ := 0, a₃ := 0, a₄ := 0, a₆ := 7 } := ⟨rfl, p_prime, rfl⟩

/-- C73: the coordinates Go uses identify the point. -/
theorem C73_affine_injective (A B : Secp256k1.Point) (h : affine A = affine B) : A = B := by
  have e : ∀ A : E.Point, affine A = coords A := fun A => by cases A <;> rfl
  rw [e, e] at h
  rw [← toG_coords A, ← toG_coords B, h]

/-- C73: on reduced coordinates, `IsOnCurve` accepts exactly the points other than infinity, that is the solutions of the curve
equation. -/
theorem C73_isOnCurve (x y : Int) (hx : 0 ≤ x ∧ x < P) (hy : 0 ≤ y ∧ y < P) :
    (s256.isOnCurve x y = true ↔ (y ^ 2 - (x ^ 3 + 7)) % P = 0) ∧
    (s256.isOnCurve x y = true ↔ ∃ A : Secp256k1.Point, A ≠ 0 ∧ affine A = (x, y)) := by
  obtain ⟨X, hX⟩ : ∃ X : ZMod p, (X.val : Int) = x := ⟨(x.toNat : ZMod p), by
    rw [ZMod.val_natCast, Nat.mod_eq_of_lt (by have : p = P := rfl; omega)]; omega⟩
  obtain ⟨Y, hY⟩ : ∃ Y : ZMod p, (Y.val : Int) = y := ⟨(y.toNat : ZMod p), by
    rw [ZMod.val_natCast, Nat.mod_eq_of_lt (by have : p = P := rfl; omega)]; omega⟩
  have hi : s256.isOnCurve x y = true ↔ Y ^ 2 = X ^ 3 + 7 := by
    change isOnCurve x y = true ↔ _
    rw [isOnCurve_iff, ← hX, ← hY, res_val, res_val]
  rw [hi]
  constructor
  · have cx : (X : ZMod p) = ((x : Int) : ZMod p) := by rw [← hX]; simp
    have cy : (Y : ZMod p) = ((y : Int) : ZMod p) := by rw [← hY]; simp
    rw [cx, cy, ← sub_eq_zero]
    have : ((y : Int) : ZMod p) ^ 2 - (((x : Int) : ZMod p) ^ 3 + 7) = ((y ^ 2 - (x ^ 3 + 7) : Int) : ZMod p) := by push_cast; ring
    rw [this, ZMod.intCast_zmod_eq_zero_iff_dvd]
    exact ⟨Int.emod_eq_zero_of_dvd, Int.dvd_of_emod_eq_zero⟩
  · constructor
    · intro h
      exact ⟨pt X Y h, pt_ne_zero h, by rw [← hX, ← hY]; rfl⟩
    · rintro ⟨A, hA, e⟩
      have := coords_on hA
      have e' : coords A = (x, y) := by rw [← e]; cases A <;> rfl
      rw [e', isOnCurve_iff, ← hX, ← hY, res_val, res_val] at this
      exact this

theorem affine_coords (A : E.Point) : affine A = coords A := by cases A <;> rfl

/-- C73: `Add` is the addition of the group, for all pairs of points: equal, opposite and infinite ones included. -/
theorem C73_add (A B : Secp256k1.Point) : s256.add (affine A).1 (affine A).2 (affine B).1 (affine B).2 = affine (A + B) := by
  change add _ _ _ _ = _
  rw [affine_coords, affine_coords, affine_coords]
  by_cases hA : A = 0
  · subst hA
    unfold add
    rw [if_pos ⟨rfl, rfl⟩]
    exact congrArg coords (zero_add B).symm
  by_cases hB : B = 0
  · subst hB
    unfold add
    rw [if_neg (fun h => hA (coords_eq_zero h)), if_pos ⟨rfl, rfl⟩]
    exact congrArg coords (add_zero A).symm
  have := add_spec' (coords_on hA) (coords_on hB)
  rw [toG_coords, toG_coords] at this
  exact this

/-- C73: `Double` is doubling, for all points. -/
theorem C73_double (A : Secp256k1.Point) : double (affine A).1 (affine A).2 = affine (A + A) := by
  rw [affine_coords, affine_coords]
  unfold double
  by_cases hA : A = 0
  · subst hA
    rw [if_pos (show (coords 0).2 = 0 from rfl)]
    exact congrArg coords (zero_add (0 : E.Point)).symm
  rcases point_cases A with rfl | ⟨x, y, h, rfl⟩
  · exact absurd rfl hA
  have hy : (coords (pt x y h)).2 ≠ 0 := by
    rw [coords_pt]
    intro e
    have : (y.val : Int) = 0 := e
    have : y.val = 0 := by omega
    exact y_ne_zero h ((ZMod.val_eq_zero y).1 this)
  rw [if_neg hy, coords_pt]
  exact toAffine_rep (doubleJacobian_rep
    (affine_rep (by have := (toField_rp (x.val : Int)).mono (k := 2) (by norm_num); rwa [res_val] at this)
      (by have := (toField_rp (y.val : Int)).mono (k := 2) (by norm_num); rwa [res_val] at this) h))

/-- C73, deviation: `IsOnCurve` ignores the sign of its arguments and everything after the first 32 bytes, so one group element has
unboundedly many accepted coordinate pairs. -/
theorem C73_oversize (x y : Int) :
    s256.isOnCurve (-x) y = s256.isOnCurve x y ∧ s256.isOnCurve x (-y) = s256.isOnCurve x y ∧
    (2 ^ 248 ≤ x → x < 2 ^ 256 → ∀ c : Int, 0 ≤ c → c < 256 → s256.isOnCurve (256 * x + c) y = s256.isOnCurve x y) := by
  have neg : ∀ z : Int, toField (-z) = toField z := by
    intro z; unfold toField intBytes; rw [Int.natAbs_neg]
  refine ⟨?_, ?_, ?_⟩
  · change isOnCurve _ _ = isOnCurve _ _
    unfold isOnCurve; rw [neg]
  · change isOnCurve _ _ = isOnCurve _ _
    unfold isOnCurve; rw [neg]
  · intro h1 h2 c c0 c1
    change isOnCurve _ _ = isOnCurve _ _
    have e : res (256 * x + c) = res x := by
      have hb : ∀ n : Nat, 0 < n → ∀ d < 256, natBE (256 * n + d) = natBE n ++ [UInt8.ofNat d] := by
        intro n hn d hd
        have key := natBE_beNat (natBE n ++ [UInt8.ofNat d])
        rw [beNat_append_single, beNat_natBE] at key
        have hd' : (UInt8.ofNat d).toNat = d := by rw [UInt8.toNat_ofNat']; omega
        rw [hd'] at key
        rw [mul_comm, key]
        have hs : stripZeros (natBE n ++ [UInt8.ofNat d]) = natBE n ++ [UInt8.ofNat d] := by
          have h0 := natBE_beNat (natBE n)
          rw [beNat_natBE] at h0
          cases hn' : natBE n with
          | nil =>
            have := beNat_natBE n
            rw [hn'] at this
            simp [beNat] at this
            omega
          | cons a t =>
            rw [hn'] at h0
            have sc : ∀ (a : UInt8) (l : Bytes), stripZeros (a :: l) = if a = 0 then stripZeros l else a :: l := fun _ _ => rfl
            rw [List.cons_append, sc]
            rw [sc] at h0
            by_cases ha : a = 0
            · rw [if_pos ha] at h0
              have hl : (stripZeros t).length ≤ t.length := by
                clear h0 hn' key
                induction t with
                | nil => simp [stripZeros]
                | cons b t ih => rw [sc]; split <;> simp <;> omega
              have := congrArg List.length h0
              simp at this
              omega
            · rw [if_neg ha]
        exact hs
      obtain ⟨n, rfl⟩ : ∃ n : Nat, x = n := ⟨x.toNat, by omega⟩
      obtain ⟨d, rfl⟩ : ∃ d : Nat, c = d := ⟨c.toNat, by omega⟩
      unfold res intBytes
      have a1 : (256 * (n : Int) + d).natAbs = 256 * n + d := by omega
      have hlen : 32 ≤ (natBE n).length := by
        by_contra hh
        have := beNat_lt (natBE n)
        rw [beNat_natBE] at this
        have h3 : 256 ^ (natBE n).length ≤ 256 ^ 31 := Nat.pow_le_pow_right (by decide) (by omega)
        have h4 : (256 : Nat) ^ 31 = 2 ^ 248 := by decide
        have : n < 2 ^ 248 := by omega
        have : (n : Int) < 2 ^ 248 := by exact_mod_cast this
        omega
      rw [a1, hb n (by omega) d (by omega), Int.natAbs_natCast, List.take_append_of_le_length hlen]
    have i1 := isOnCurve_iff (256 * x + c) y
    rw [e, ← isOnCurve_iff] at i1
    exact Bool.eq_iff_iff.2 i1

/-- C73, deviation, at the level of points: `NewECPoint` accepts coordinates of 33 bytes that denote the base point without being
equal to it. -/
theorem C73_oversize_point (c : Int) (h0 : 0 ≤ c) (h1 : c < 256) (hG : 2 ^ 248 ≤ Gx := by decide) :
    ∃ A : ECPoint, ECPoint.new s256 (256 * Gx + c) Gy = some A ∧ ECPoint.equals (some A) (some ⟨Gx, Gy⟩) = false := by
  have hon : isOnCurve Gx Gy = true := by
    have := coords_on G_ne_zero
    rwa [base_coords] at this
  refine ⟨⟨256 * Gx + c, Gy⟩, ?_, ?_⟩
  · unfold ECPoint.new
    rw [(C73_oversize Gx Gy).2.2 hG (by decide) c h0 h1]
    rw [if_pos (show s256.isOnCurve Gx Gy = true from hon)]
  · have : 256 * Gx + c ≠ Gx := by
      have : (0 : Int) < Gx := by decide
      omega
    simp [ECPoint.equals, this]

/-! ### C74: multiplication -/

/-- C74: `ScalarMult` multiplies by the big-endian value of its byte string, whatever its length, for every point. -/
theorem C74_scalarMult (A : Secp256k1.Point) (k : Bytes) :
    s256.scalarMult (affine A).1 (affine A).2 k = affine (beNat k • A) := by
  change scalarMult _ _ _ = _
  rw [affine_coords, affine_coords]
  by_cases hA : A = 0
  · subst hA
    have : scalarMult (coords 0).1 (coords 0).2 k = (0, 0) := scalarMult_zero k
    refine this.trans ?_
    exact congrArg coords (nsmul_zero (M := E.Point) (beNat k)).symm
  have := scalarMult_spec (coords_on hA) k
  rw [toG_coords] at this
  exact this

/-- C74: `ScalarBaseMult` multiplies the base point, whose coordinates are the published ones. -/
theorem C74_scalarBaseMult : ∃ B : Secp256k1.Point,
    affine B = (0x79BE667EF9DCBBAC55A06295CE870B07029BFCDB2DCE28D959F2815B16F81798,
      0x483ADA7726A3C4655DA4FBFC0E1108A8FD17B448A68554199C47D08FFB10D4B8) ∧
    (∀ k : Bytes, s256.scalarBaseMult k = affine (beNat k • B)) ∧
    ∀ k : Bytes, s256.scalarBaseMult k = s256.scalarMult s256.Gx s256.Gy k := by
  refine ⟨G, ?_, ?_, ?_⟩
  · rw [affine_coords, base_coords]; rfl
  · intro k
    exact (scalarBaseMult_spec k).trans (affine_coords _).symm
  · intro k
    refine (scalarBaseMult_spec k).trans ?_
    have := C74_scalarMult G k
    rw [affine_coords, affine_coords, base_coords] at this
    exact this.symm

/-- C74: the group has prime order N, the order Go advertises: every point is a multiple of the base point, and every point except
infinity has order N, so there are no small subgroups. -/
theorem C74_group_order :
    (s256.N = 0xFFFFFFFFFFFFFFFFFFFFFFFFFFFFFFFEBAAEDCE6AF48A03BBFD25E8CD0364141) ∧ Nat.Prime s256.N.toNat ∧
    (Nat.card Secp256k1.Point : Int) = s256.N ∧
    (∀ A : Secp256k1.Point, A ≠ 0 → ∀ k : Int, k • A = 0 ↔ s256.N ∣ k) ∧
    (∀ A : Secp256k1.Point, ∃ k : Bytes, s256.scalarBaseMult k = affine A) := by
  refine ⟨rfl, ?_, ?_, ?_, ?_⟩
  · have : s256.N.toNat = ord := by decide +kernel
    rw [this]; exact ord_prime
  · have := card_eq
    change (Nat.card E.Point : Int) = N
    rw [this, ord_N]
  · intro A hA k
    change k • (A : E.Point) = 0 ↔ N ∣ k
    rw [ord_N]
    have ho : addOrderOf (A : E.Point) = ord := by
      have : Fact (Nat.Prime ord) := ⟨ord_prime⟩
      exact addOrderOf_eq_prime (ord_smul A) hA
    rw [← ho]
    exact addOrderOf_dvd_iff_zsmul_eq_zero.symm
  · intro A
    obtain ⟨k, -, e⟩ := exists_mul A
    refine ⟨natBE k, (scalarBaseMult_spec _).trans ?_⟩
    rw [beNat_natBE, affine_coords, e]

/-- S256 as a curve computing in a group, for the theorems that take one. -/
noncomputable def s256_lawful : PLawful s256 E.Point where
  toG := toG
  coords := coords
  toG_coords g _ := toG_coords g
  add_eq _ _ _ _ h h' := add_spec' h h'
  base := G
  scalarBaseMult_eq := scalarBaseMult_spec
  N_pos := by decide
  N_base := by
    change N • G = 0
    rw [ord_N, natCast_zsmul, ord_smul_G]

theorem coords_inj {A B : E.Point} (h : coords A = coords B) : A = B := by
  rw [← toG_coords A, ← toG_coords B, h]

/-- C74: `crypto.ScalarBaseMult` on S256 returns nil exactly for multiples of the order; otherwise the point k·G, with reduced
coordinates. -/
theorem C74_scalarBaseMult_nil (k : Int) :
    (ECPoint.scalarBaseMult s256 k = none ↔ s256.N ∣ k) ∧
    ∀ A, ECPoint.scalarBaseMult s256 k = some A → ∃ Q : Secp256k1.Point, (A.x, A.y) = affine Q ∧
      ∀ B : Secp256k1.Point, affine B = (s256.Gx, s256.Gy) → Q = k • B := by
  have hz : s256.scalarBaseMult (intBytes (k % s256.N)) = coords (k • G) := by
    refine (scalarBaseMult_spec _).trans ?_
    have h0 := Int.emod_nonneg k (show s256.N ≠ 0 by decide)
    rw [← natCast_zsmul, beNat_intBytes, Int.natAbs_of_nonneg h0]
    apply coords_mod
    change (ord : Int) ∣ k % N - k
    rw [ord_N]
    exact ⟨-(k / ord), by linarith [Int.emod_add_mul_ediv k ord]⟩
  have hord : k • G = 0 ↔ s256.N ∣ k := C74_group_order.2.2.2.1 G G_ne_zero k
  constructor
  · rw [← hord]
    unfold ECPoint.scalarBaseMult ECPoint.new
    simp only
    rw [hz]
    constructor
    · intro h
      by_contra hne
      rw [if_pos (show s256.isOnCurve _ _ = true from coords_on hne)] at h
      cases h
    · intro h
      rw [h, if_neg]
      rw [Bool.not_eq_true]
      exact off_zero
  · intro A hA
    unfold ECPoint.scalarBaseMult ECPoint.new at hA
    simp only at hA
    rw [hz] at hA
    split at hA
    · cases hA
      refine ⟨k • G, (affine_coords _).symm, ?_⟩
      intro B hB
      have : B = G := coords_inj (by rw [← affine_coords, hB, base_coords]; rfl)
      rw [this]
    · cases hA

/-- C74: `Add` of two points of S256 fails exactly for opposite points (infinity, which no `NewECPoint` returns, included). -/
theorem C74_add_error (A B : Secp256k1.Point) :
    ECPoint.add s256 ⟨(affine A).1, (affine A).2⟩ ⟨(affine B).1, (affine B).2⟩ = none ↔ A = -B := by
  unfold ECPoint.add ECPoint.new
  simp only
  rw [C73_add, affine_coords]
  constructor
  · intro h
    by_contra hne
    have : (A + B : E.Point) ≠ 0 := fun e => hne (eq_neg_of_add_eq_zero_left e)
    rw [if_pos (show s256.isOnCurve _ _ = true from coords_on this)] at h
    cases h
  · intro h
    have : (A + B : E.Point) = 0 := by rw [h]; exact neg_add_cancel B
    have e : coords (A + B : E.Point) = (0, 0) := by rw [this, coords_zero]
    rw [e, if_neg]
    rw [Bool.not_eq_true]
    exact off_zero

end Tss.Secp
