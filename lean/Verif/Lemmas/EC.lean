import Verif.Model.EC
import Verif.Lemmas.Go
import Mathlib.Algebra.Group.Defs
import Mathlib.Algebra.Module.Basic
import Mathlib.Data.ZMod.Basic
import Mathlib.Tactic.Abel

namespace Tss

/-- What it means for the `elliptic.Curve` functions to compute in an abelian group `G`: every
on-curve coordinate pair denotes a group element, every group element has coordinates, and addition,
scalar and base multiplication return the coordinates of the right element.  (Complete curves such as
twisted Edwards, where the identity has affine coordinates on the curve.) -/
structure Lawful (c : Curve) (G : Type) [AddCommGroup G] where
  toG : Int → Int → G
  coords : G → Int × Int
  onCurve_coords : ∀ g, c.isOnCurve (coords g).1 (coords g).2 = true
  toG_coords : ∀ g, toG (coords g).1 (coords g).2 = g
  add_eq : ∀ x y x' y', c.isOnCurve x y = true → c.isOnCurve x' y' = true →
    c.add x y x' y' = coords (toG x y + toG x' y')
  scalarMult_eq : ∀ x y k, c.isOnCurve x y = true → c.scalarMult x y k = coords (beNat k • toG x y)
  base : G
  base_onCurve : c.isOnCurve c.Gx c.Gy = true
  base_eq : toG c.Gx c.Gy = base
  scalarBaseMult_eq : ∀ k, c.scalarBaseMult k = coords (beNat k • base)
  N_pos : 0 < c.N
  N_base : c.N • base = 0

namespace Lawful
variable {c : Curve} {G : Type} [AddCommGroup G] (L : Lawful c G)

/-- The group element a point denotes. -/
def val (p : ECPoint) : G := L.toG p.x p.y

/-- The point of a group element. -/
def pt (g : G) : ECPoint := ⟨(L.coords g).1, (L.coords g).2⟩

/-- The point passes the curve check. -/
def _root_.Tss.Curve.On (c : Curve) (p : ECPoint) : Prop := c.isOnCurve p.x p.y = true

instance (c : Curve) (p : ECPoint) : Decidable (c.On p) :=
  inferInstanceAs (Decidable (c.isOnCurve p.x p.y = true))

@[simp] theorem val_pt (g : G) : L.val (L.pt g) = g := L.toG_coords g

theorem on_pt (g : G) : c.On (L.pt g) := L.onCurve_coords g

theorem pt_inj {g h : G} : L.pt g = L.pt h ↔ g = h := by
  constructor
  · intro e; have := congrArg L.val e; simpa using this
  · rintro rfl; rfl

theorem new_coords (g : G) : ECPoint.new c (L.coords g).1 (L.coords g).2 = some (L.pt g) := by
  unfold ECPoint.new
  rw [if_pos (L.onCurve_coords g)]; rfl

theorem add_pt {p q : ECPoint} (hp : c.On p) (hq : c.On q) :
    ECPoint.add c p q = some (L.pt (L.val p + L.val q)) := by
  unfold ECPoint.add
  simp only [L.add_eq _ _ _ _ hp hq]
  exact L.new_coords _

include L in
theorem beNat_intBytes_emod (k : Int) : ((beNat (intBytes (k % c.N)) : Nat) : Int) = k % c.N := by
  rw [beNat_intBytes]
  have := Int.emod_nonneg k (show c.N ≠ 0 from by have := L.N_pos; omega)
  omega

theorem scalarMult_pt {p : ECPoint} (hp : c.On p) (k : Int) :
    ECPoint.scalarMult c p k = some (L.pt ((k % c.N) • L.val p)) := by
  unfold ECPoint.scalarMult
  simp only [L.scalarMult_eq _ _ _ hp]
  rw [← natCast_zsmul, L.beNat_intBytes_emod]
  exact L.new_coords _

theorem emod_smul {g : G} (hg : c.N • g = 0) (k : Int) : (k % c.N) • g = k • g := by
  conv_rhs => rw [← Int.emod_add_mul_ediv k c.N]
  rw [add_smul, mul_comm, mul_smul, hg, smul_zero, add_zero]

theorem scalarBaseMult_pt (k : Int) : ECPoint.scalarBaseMult c k = some (L.pt (k • L.base)) := by
  unfold ECPoint.scalarBaseMult
  simp only [L.scalarBaseMult_eq]
  rw [← natCast_zsmul, L.beNat_intBytes_emod, emod_smul L.N_base]
  exact L.new_coords _

theorem eightInvEight_pt {p : ECPoint} (hp : c.On p) (h8 : Int.gcd 8 c.N = 1) :
    ∃ inv : Int, 8 * inv ≡ 1 [ZMOD c.N] ∧ 0 ≤ inv ∧ inv < c.N ∧
      ECPoint.eightInvEight c p = .ok (some (L.pt (inv • ((8 % c.N) • L.val p)))) := by
  have hN : c.N ≠ 0 := by have := L.N_pos; omega
  obtain ⟨inv, hinv⟩ := Option.isSome_iff_exists.mp (modInverse_isSome.mpr h8)
  obtain ⟨h0, h1, h2⟩ := modInverse_spec hN hinv
  rw [abs_of_pos L.N_pos] at h1
  refine ⟨inv, h2, h0, h1, ?_⟩
  unfold ECPoint.eightInvEight
  simp only [L.scalarMult_pt hp, hinv]
  rw [L.scalarMult_pt (L.on_pt _), L.val_pt, Int.emod_eq_of_lt h0 h1]

end Lawful

/-! ### A small lawful curve: Z/11 × Z/8 (cofactor 8), used in the examples -/

/-- Toy group of order 88 with an order-11 base point and cofactor 8, presented as a `Curve`. -/
def toyCurve : Curve where
  N := 11
  Gx := 1
  Gy := 0
  isOnCurve x y := decide (0 ≤ x ∧ x < 11 ∧ 0 ≤ y ∧ y < 8)
  add x y x' y' := ((x + x') % 11, (y + y') % 8)
  scalarMult x y k := ((beNat k : Int) * x % 11, (beNat k : Int) * y % 8)
  scalarBaseMult k := ((beNat k : Int) % 11, 0)

theorem zmod_val_cast {n : Nat} [NeZero n] (a : Int) : (((a : ZMod n).val : Nat) : Int) = a % n := by
  exact ZMod.val_intCast a

/-- The toy curve is lawful. -/
def toyLawful : Lawful toyCurve (ZMod 11 × ZMod 8) where
  toG x y := ((x : ZMod 11), (y : ZMod 8))
  coords g := ((g.1.val : Int), (g.2.val : Int))
  onCurve_coords g := by
    have h1 := ZMod.val_lt g.1
    have h2 := ZMod.val_lt g.2
    simp only [toyCurve, decide_eq_true_eq]; omega
  toG_coords g := by
    ext <;> simp
  add_eq x y x' y' _ _ := by
    have h1 := zmod_val_cast (n := 11) (x + x')
    have h2 := zmod_val_cast (n := 8) (y + y')
    simp only [toyCurve, Prod.mk_add_mk]
    push_cast at h1 h2
    rw [h1, h2]
  scalarMult_eq x y k _ := by
    have h1 := zmod_val_cast (n := 11) ((beNat k : Int) * x)
    have h2 := zmod_val_cast (n := 8) ((beNat k : Int) * y)
    simp only [toyCurve, Prod.smul_mk, nsmul_eq_mul]
    push_cast at h1 h2
    rw [h1, h2]
  base := (1, 0)
  base_onCurve := by decide
  base_eq := by simp [toyCurve]
  scalarBaseMult_eq k := by
    have h1 := zmod_val_cast (n := 11) (beNat k : Int)
    simp only [toyCurve, Prod.smul_mk, nsmul_eq_mul, mul_one, mul_zero]
    push_cast at h1
    rw [h1]
    simp
  N_pos := by decide
  N_base := by decide

end Tss
