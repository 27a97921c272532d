import Verif.Lemmas.Ed25519Order
import Verif.Props.EC
/-
The number of points of the curve returned by tss.Edwards(), and what EightInvEight does on that curve (C25, C67).
-/
namespace Tss.Ed
open Tss Edw

theorem coords_canonical {x y : Nat} (hx : x < P) (hy : y < P) (h : curve.isOnCurve x y = true) :
    coords (toPt x y) = ((x : Int), (y : Int)) := by
  have hP := P_lt
  unfold coords
  rw [toPt_x h, toPt_y h, fe_eq (by omega) (by omega), fe_eq (by omega) (by omega), Int.toNat_natCast,
    Int.toNat_natCast, ZMod.val_natCast, ZMod.val_natCast, Nat.mod_eq_of_lt hx, Nat.mod_eq_of_lt hy]

theorem coords_zero : coords 0 = (0, 1) := by decide +kernel

/-- The canonical coordinate pairs that pass `IsOnCurve` are the points of the group. -/
noncomputable def pairsEquiv :
    {xy : Fin P × Fin P // curve.isOnCurve ((xy.1 : Nat) : Int) ((xy.2 : Nat) : Int) = true} ≃ Point where
  toFun s := toPt ((s.1.1 : Nat) : Int) ((s.1.2 : Nat) : Int)
  invFun g := ⟨(⟨g.x.val, ZMod.val_lt _⟩, ⟨g.y.val, ZMod.val_lt _⟩), lawful.onCurve_coords g⟩
  left_inv s := by
    obtain ⟨⟨⟨x, hx⟩, ⟨y, hy⟩⟩, h⟩ := s
    have e := coords_canonical hx hy h
    simp only [coords, Prod.mk.injEq, Nat.cast_inj] at e
    exact Subtype.ext (Prod.ext (Fin.ext e.1) (Fin.ext e.2))
  right_inv g := lawful.toG_coords g

/-- C67: exactly 8ℓ canonical coordinate pairs pass `IsOnCurve`: the group has order 8ℓ (cofactor 8). -/
theorem C67_group_order :
    Nat.card {xy : Fin (2 ^ 255 - 19) × Fin (2 ^ 255 - 19) //
      curve.isOnCurve ((xy.1 : Nat) : Int) ((xy.2 : Nat) : Int) = true} =
      8 * (2 ^ 252 + 27742317777372353535851937790883648493) := by
  have := Nat.card_congr pairsEquiv
  rw [card_eq] at this
  exact this

/-- C67: multiplying any point of the curve by 8ℓ gives the identity (0,1). -/
theorem C67_exponent {x y : Int} (h : curve.isOnCurve x y = true) (k : Bytes) (hk : 8 * spec.l ∣ beNat k) :
    curve.scalarMult x y k = (0, 1) := by
  rw [lawful.scalarMult_eq _ _ _ h]
  obtain ⟨m, hm⟩ := hk
  rw [hm, mul_nsmul]
  have : (8 * spec.l) • lawful.toG x y = 0 := exponent _
  rw [this, smul_zero]
  exact coords_zero

/-- C67: the points killed by ℓ are exactly the multiples of the base point. -/
theorem C67_prime_subgroup {x y : Nat} (hx : x < P) (hy : y < P) (h : curve.isOnCurve x y = true) (l : Bytes)
    (hl : beNat l = spec.l) :
    curve.scalarMult x y l = (0, 1) ↔ ∃ k : Bytes, beNat k < spec.l ∧ curve.scalarBaseMult k = ((x : Int), (y : Int)) := by
  have base : ∀ k, curve.scalarBaseMult k = coords (beNat k • B) := fun k => lawful.scalarBaseMult_eq k
  have c := coords_canonical hx hy h
  have inj : ∀ g h : Point, coords g = coords h → g = h := by
    intro g h hh
    have g1 : toPt (coords g).1 (coords g).2 = g := lawful.toG_coords g
    have h1 : toPt (coords h).1 (coords h).2 = h := lawful.toG_coords h
    rw [← g1, ← h1, hh]
  have e : curve.scalarMult x y l = coords (spec.l • toPt x y) := by
    rw [lawful.scalarMult_eq _ _ _ h, hl]; rfl
  rw [e, ← coords_zero]
  constructor
  · intro h0
    obtain ⟨k, hk, hg⟩ := mem_subgroup (g := toPt x y) (inj _ _ h0)
    refine ⟨natBE k, ?_, ?_⟩
    · rw [beNat_natBE]; exact hk
    · rw [base, beNat_natBE, ← hg, c]
  · rintro ⟨k, -, hk⟩
    rw [base, ← c] at hk
    rw [← inj _ _ hk]
    congr 1
    rw [smul_comm]
    have : spec.l • B = 0 := ord_smul_B
    rw [this, smul_zero]

/-- C25 on the real curve: `EightInvEight` of any point of edwards25519 (given by canonical coordinates) succeeds;
its result is a multiple of the base point, and the input is that result plus a point of order dividing 8. -/
theorem C25_ed25519 {x y : Nat} (hx : x < P) (hy : y < P) (h : curve.isOnCurve x y = true) :
    ∃ (r t : ECPoint) (k : Int), ECPoint.eightInvEight curve ⟨x, y⟩ = .ok (some r) ∧
      0 ≤ k ∧ k < spec.l ∧ ECPoint.scalarBaseMult curve k = some r ∧
      curve.isOnCurve t.x t.y = true ∧ ECPoint.scalarMult curve t 8 = some ⟨0, 1⟩ ∧
      ECPoint.add curve r t = some ⟨x, y⟩ := by
  have h8 : Int.gcd 8 curve.N = 1 := by decide +kernel
  have hbig : (8 : Int) < curve.N := by decide +kernel
  have hexp : ∀ g : Point, ((8 : Int) * curve.N) • g = 0 := by
    intro g
    have := exponent g
    rw [← natCast_zsmul] at this
    exact this
  obtain ⟨inv, hinv, h0, h1, he⟩ := lawful.eightInvEight_pt (p := ⟨x, y⟩) h h8
  have e8 : (8 : Int) % curve.N = 8 := Int.emod_eq_of_lt (by omega) hbig
  rw [e8] at he
  set g : Point := lawful.val ⟨x, y⟩ with hg
  set s : Point := inv • ((8 : Int) • g) with hs
  have hN : curve.N • s = 0 := by
    rw [hs, smul_comm curve.N, smul_smul curve.N 8, mul_comm, hexp, smul_zero]
  have hN' : ord • s = 0 := by rw [← natCast_zsmul]; exact hN
  obtain ⟨k, hk, hks⟩ := mem_subgroup hN'
  have ht : (8 : Int) • (g - s) = 0 := by
    have : (8 : Int) • s = (8 : Int) • g := by
      rw [hs, ← mul_smul]
      obtain ⟨c, hc⟩ := hinv.dvd
      have : 8 * inv = 1 - curve.N * c := by omega
      rw [this, ← mul_smul, sub_mul, one_mul, sub_smul, show curve.N * c * 8 = c * (8 * curve.N) by ring, mul_smul,
        hexp, smul_zero, sub_zero]
    rw [smul_sub, this, sub_self]
  refine ⟨lawful.pt s, lawful.pt (g - s), k, he, by omega, by exact_mod_cast hk, ?_, lawful.on_pt _, ?_, ?_⟩
  · rw [lawful.scalarBaseMult_pt, hks, natCast_zsmul]; rfl
  · rw [lawful.scalarMult_pt (lawful.on_pt _), lawful.val_pt, e8, ht]
    congr 1
  · rw [lawful.add_pt (lawful.on_pt _) (lawful.on_pt _), lawful.val_pt, lawful.val_pt, add_sub_cancel]
    have c := coords_canonical hx hy h
    change some (ECPoint.mk (coords (toPt x y)).1 (coords (toPt x y)).2) = _
    rw [c]

/-- C25: the result and the removed torsion part are both non-trivial in general; B + T8 is mapped to B. -/
theorem C25_ed25519_removes_torsion :
    ∃ p : ECPoint, curve.isOnCurve p.x p.y = true ∧ p ≠ ⟨Bx, By⟩ ∧
      ECPoint.eightInvEight curve p = .ok (some ⟨Bx, By⟩) := by
  have h8 : Int.gcd 8 curve.N = 1 := by decide +kernel
  have hbig : (8 : Int) < curve.N := by decide +kernel
  refine ⟨lawful.pt (B + T8), lawful.on_pt _, ?_, ?_⟩
  · intro e
    have hb : (⟨Bx, By⟩ : ECPoint) = lawful.pt B := by
      have := coords_canonical (x := Bx) (y := By) (by decide +kernel) (by decide +kernel) lawful.base_onCurve
      have hB : toPt Bx By = B := lawful.base_eq
      rw [hB] at this
      change _ = ECPoint.mk (coords B).1 (coords B).2
      rw [this]
    rw [hb, lawful.pt_inj] at e
    have h0 : T8 = 0 := by simpa using e
    exact four_T8 (by rw [h0, smul_zero])
  · have := ECPoint.C25_clears_torsion lawful h8 hbig (lawful.pt (B + T8)) (lawful.on_pt _) B T8 (lawful.val_pt _)
      (by have := ord_smul_B; rw [← natCast_zsmul] at this; exact this)
      (by have := eight_T8; rw [← natCast_zsmul] at this; exact this)
    rw [this]
    have hb : lawful.pt B = (⟨Bx, By⟩ : ECPoint) := by
      have := coords_canonical (x := Bx) (y := By) (by decide +kernel) (by decide +kernel) lawful.base_onCurve
      have hB : toPt Bx By = B := lawful.base_eq
      rw [hB] at this
      change ECPoint.mk (coords B).1 (coords B).2 = _
      rw [this]
    rw [hb]

/-- The hypotheses of the theorems above hold of a point outside the prime-order subgroup. -/
example : curve.isOnCurve (Tx : Nat) (Ty : Nat) = true ∧ Tx < P ∧ Ty < P := by decide +kernel

end Tss.Ed
