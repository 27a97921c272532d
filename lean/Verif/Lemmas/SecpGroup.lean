import Verif.Lemmas.SecpRep
import Mathlib.AlgebraicGeometry.EllipticCurve.Affine.Point
import Mathlib.Tactic.FieldSimp
import Mathlib.Tactic.LinearCombination
/-
The group of secp256k1 (Mathlib's group of points of y² = x³ + 7 over Z/P), in the form the Jacobian formulas need.
-/
namespace Tss.Secp
open Tss WeierstrassCurve

/-- The curve y² = x³ + 7 over Z/P. -/
def E : WeierstrassCurve.Affine (ZMod p) := { a₁ := 0, a₂ := 0, a₃ := 0, a₄ := 0, a₆ := 7 }

theorem two_ne : (2 : ZMod p) ≠ 0 := by
  have : ((2 : ℕ) : ZMod p) ≠ 0 := by
    rw [Ne, ZMod.natCast_eq_zero_iff]; decide +kernel
  exact_mod_cast this

theorem nonsing_iff (x y : ZMod p) : E.Nonsingular x y ↔ y ^ 2 = x ^ 3 + 7 ∧ (x ≠ 0 ∨ y ≠ 0) := by
  have three : (3 : ZMod p) ≠ 0 := by
    have : ((3 : ℕ) : ZMod p) ≠ 0 := by
      rw [Ne, ZMod.natCast_eq_zero_iff]; decide +kernel
    exact_mod_cast this
  have h2 := two_ne
  rw [Affine.nonsingular_iff', Affine.equation_iff]
  simp only [E, zero_mul, add_zero, mul_zero, zero_sub, neg_ne_zero]
  constructor
  · rintro ⟨h, h' | h'⟩
    · exact ⟨h, Or.inl fun e => h' (by rw [e]; ring)⟩
    · exact ⟨h, Or.inr fun e => h' (by rw [e]; ring)⟩
  · rintro ⟨h, h' | h'⟩
    · exact ⟨h, Or.inl (mul_ne_zero three (pow_ne_zero _ h'))⟩
    · exact ⟨h, Or.inr (mul_ne_zero h2 h')⟩

/-- The curve has no point with y = 0: -7 is not a cube. -/
theorem y_ne_zero {x y : ZMod p} (h : y ^ 2 = x ^ 3 + 7) : y ≠ 0 := by
  rintro rfl
  have h7 : x ^ 3 = -7 := by linear_combination -h
  have c : ((p - 7 : ℕ) : ZMod p) = -7 := by
    rw [Nat.cast_sub (by norm_num [p]), ZMod.natCast_self, zero_sub]; rfl
  have hp : x ≠ 0 := by
    rintro rfl
    rw [zero_pow (by norm_num)] at h7
    have : ((7 : ℕ) : ZMod p) = 0 := by
      have := neg_eq_zero.1 h7.symm
      exact_mod_cast this
    rw [ZMod.natCast_eq_zero_iff] at this
    exact absurd this (by decide +kernel)
  have e : (x ^ 3) ^ ((p - 1) / 3) = 1 := by
    rw [← pow_mul]
    have : 3 * ((p - 1) / 3) = p - 1 := by norm_num [p]
    rw [this]
    exact ZMod.pow_card_sub_one_eq_one hp
  rw [h7, ← c] at e
  have e' : (((p - 7) ^ ((p - 1) / 3) % p : ℕ) : ZMod p) = ((1 : ℕ) : ZMod p) := by
    rw [ZMod.natCast_mod, Nat.cast_pow, e, Nat.cast_one]
  rw [ZMod.natCast_eq_natCast_iff'] at e'
  rw [Nat.mod_mod] at e'
  rw [← powMod_eq] at e'
  revert e'
  decide +kernel

theorem onCurve_nonsing {x y : ZMod p} (h : y ^ 2 = x ^ 3 + 7) : E.Nonsingular x y :=
  (nonsing_iff x y).2 ⟨h, Or.inr (y_ne_zero h)⟩

/-- The point (x, y). -/
def pt (x y : ZMod p) (h : y ^ 2 = x ^ 3 + 7) : E.Point := .some x y (onCurve_nonsing h)

theorem point_cases (P : E.Point) : P = 0 ∨ ∃ x y h, P = pt x y h := by
  rcases P with _ | ⟨x, y, h⟩
  · exact Or.inl rfl
  · exact Or.inr ⟨x, y, ((nonsing_iff x y).1 h).1, rfl⟩

theorem pt_ne_zero {x y : ZMod p} (h : y ^ 2 = x ^ 3 + 7) : pt x y h ≠ 0 := Affine.Point.some_ne_zero _

theorem pt_inj {x y x' y' : ZMod p} {h : y ^ 2 = x ^ 3 + 7} {h' : y' ^ 2 = x' ^ 3 + 7} (e : pt x y h = pt x' y' h') :
    x = x' ∧ y = y' := by
  unfold pt at e
  injection e with e1 e2
  exact ⟨e1, e2⟩

theorem pt_congr {x y x' y' : ZMod p} {h : y ^ 2 = x ^ 3 + 7} {h' : y' ^ 2 = x' ^ 3 + 7} (e : x = x') (e' : y = y') :
    pt x y h = pt x' y' h' := by subst e e'; rfl

theorem neg_on {x y : ZMod p} (h : y ^ 2 = x ^ 3 + 7) : (-y) ^ 2 = x ^ 3 + 7 := by rw [neg_sq]; exact h

theorem negY_eq (x y : ZMod p) : E.negY x y = -y := by
  simp [Affine.negY, E]

theorem addX_eq (x1 x2 l : ZMod p) : E.addX x1 x2 l = l ^ 2 - x1 - x2 := by
  simp [Affine.addX, E]

theorem pt_neg {x y : ZMod p} (h : y ^ 2 = x ^ 3 + 7) : -pt x y h = pt x (-y) (neg_on h) := by
  unfold pt
  rw [Affine.Point.neg_some]
  congr 1
  exact negY_eq x y

theorem pt_add_neg {x y x' y' : ZMod p} (h : y ^ 2 = x ^ 3 + 7) (h' : y' ^ 2 = x' ^ 3 + 7) (hx : x = x') (hy : y ≠ y') :
    pt x y h + pt x' y' h' = 0 := by
  subst hx
  have e : y = -y' := by
    have : (y - y') * (y + y') = 0 := by linear_combination h - h'
    rcases mul_eq_zero.1 this with e | e
    · exact absurd (sub_eq_zero.1 e) hy
    · exact eq_neg_of_add_eq_zero_left e
  exact Affine.Point.add_of_Y_eq rfl (by rw [negY_eq]; exact e)

/-- Chord addition, with the denominators cleared. -/
theorem pt_add {x1 y1 x2 y2 x3 y3 : ZMod p} (h1 : y1 ^ 2 = x1 ^ 3 + 7) (h2 : y2 ^ 2 = x2 ^ 3 + 7) (hx : x1 ≠ x2)
    (ex : x3 * (x1 - x2) ^ 2 = (y1 - y2) ^ 2 - (x1 + x2) * (x1 - x2) ^ 2)
    (ey : y3 * (x1 - x2) = (y1 - y2) * (x1 - x3) - y1 * (x1 - x2)) : ∃ h3, pt x1 y1 h1 + pt x2 y2 h2 = pt x3 y3 h3 := by
  have hd : x1 - x2 ≠ 0 := sub_ne_zero.2 hx
  have e : pt x1 y1 h1 + pt x2 y2 h2 = Affine.Point.some _ _ _ :=
    Affine.Point.add_of_X_ne (h₁ := onCurve_nonsing h1) (h₂ := onCurve_nonsing h2) hx
  have sl : E.slope x1 x2 y1 y2 * (x1 - x2) = y1 - y2 := by
    rw [Affine.slope_of_X_ne hx, div_mul_cancel₀ _ hd]
  have fx : E.addX x1 x2 (E.slope x1 x2 y1 y2) = x3 := by
    apply mul_right_cancel₀ (pow_ne_zero 2 hd)
    rw [ex]
    rw [addX_eq]
    linear_combination (E.slope x1 x2 y1 y2 * (x1 - x2) + (y1 - y2)) * sl
  have fy : E.addY x1 x2 y1 (E.slope x1 x2 y1 y2) = y3 := by
    apply mul_right_cancel₀ hd
    rw [ey]
    simp only [Affine.addY, Affine.negAddY]
    rw [fx, negY_eq]
    linear_combination (x1 - x3) * sl
  rcases point_cases (pt x1 y1 h1 + pt x2 y2 h2) with h0 | ⟨x, y, h, h0⟩
  · rw [h0] at e; exact absurd e.symm (Affine.Point.some_ne_zero _)
  · have e2 := h0.symm.trans e
    unfold pt at e2
    injection e2 with a b
    subst a b
    subst fx fy
    exact ⟨h, h0⟩

/-- Tangent doubling, with the denominators cleared. -/
theorem pt_double {x1 y1 x3 y3 : ZMod p} (h1 : y1 ^ 2 = x1 ^ 3 + 7)
    (ex : x3 * (2 * y1) ^ 2 = (3 * x1 ^ 2) ^ 2 - 2 * x1 * (2 * y1) ^ 2)
    (ey : y3 * (2 * y1) = 3 * x1 ^ 2 * (x1 - x3) - y1 * (2 * y1)) : ∃ h3, pt x1 y1 h1 + pt x1 y1 h1 = pt x3 y3 h3 := by
  have hy := y_ne_zero h1
  have hd : 2 * y1 ≠ 0 := mul_ne_zero two_ne hy
  have hn : y1 ≠ E.negY x1 y1 := by
    rw [negY_eq]
    intro e
    exact hd (by linear_combination e)
  have e : pt x1 y1 h1 + pt x1 y1 h1 = Affine.Point.some _ _ _ :=
    Affine.Point.add_self_of_Y_ne (h₁ := onCurve_nonsing h1) hn
  have sl : E.slope x1 x1 y1 y1 * (2 * y1) = 3 * x1 ^ 2 := by
    rw [Affine.slope_of_Y_ne rfl hn, negY_eq, sub_neg_eq_add, ← two_mul]
    simp only [E, zero_mul, add_zero, sub_zero, mul_zero]
    rw [div_mul_cancel₀ _ hd]
  have fx : E.addX x1 x1 (E.slope x1 x1 y1 y1) = x3 := by
    apply mul_right_cancel₀ (pow_ne_zero 2 hd)
    rw [ex]
    rw [addX_eq]
    linear_combination (E.slope x1 x1 y1 y1 * (2 * y1) + 3 * x1 ^ 2) * sl
  have fy : E.addY x1 x1 y1 (E.slope x1 x1 y1 y1) = y3 := by
    apply mul_right_cancel₀ hd
    rw [ey]
    simp only [Affine.addY, Affine.negAddY]
    rw [fx, negY_eq]
    linear_combination (x1 - x3) * sl
  rcases point_cases (pt x1 y1 h1 + pt x1 y1 h1) with h0 | ⟨x, y, h, h0⟩
  · rw [h0] at e; exact absurd e.symm (Affine.Point.some_ne_zero _)
  · have e2 := h0.symm.trans e
    unfold pt at e2
    injection e2 with a b
    subst a b
    subst fx fy
    exact ⟨h, h0⟩

/-- Jacobian coordinates of a point other than infinity. -/
def JP (x y z : ZMod p) (P : E.Point) : Prop := z ≠ 0 ∧ ∃ X Y h, x = X * z ^ 2 ∧ y = Y * z ^ 3 ∧ P = pt X Y h

theorem jp_add {X1 Y1 X2 Y2 x y z : ZMod p} (h1 : Y1 ^ 2 = X1 ^ 3 + 7) (h2 : Y2 ^ 2 = X2 ^ 3 + 7) (hx : X1 ≠ X2) (hz : z ≠ 0)
    (ex : x * (X1 - X2) ^ 2 = z ^ 2 * ((Y1 - Y2) ^ 2 - (X1 + X2) * (X1 - X2) ^ 2))
    (ey : y * (X1 - X2) ^ 3 = z ^ 3 * ((Y1 - Y2) * ((2 * X1 + X2) * (X1 - X2) ^ 2 - (Y1 - Y2) ^ 2) - Y1 * (X1 - X2) ^ 3)) :
    JP x y z (pt X1 Y1 h1 + pt X2 Y2 h2) := by
  have hd : X1 - X2 ≠ 0 := sub_ne_zero.2 hx
  have hz2 := pow_ne_zero 2 hz
  have hz3 := pow_ne_zero 3 hz
  have fx : x / z ^ 2 * (X1 - X2) ^ 2 = (Y1 - Y2) ^ 2 - (X1 + X2) * (X1 - X2) ^ 2 := by
    rw [div_mul_eq_mul_div, ex, mul_div_cancel_left₀ _ hz2]
  have fy0 : y / z ^ 3 * (X1 - X2) ^ 3 =
      (Y1 - Y2) * ((2 * X1 + X2) * (X1 - X2) ^ 2 - (Y1 - Y2) ^ 2) - Y1 * (X1 - X2) ^ 3 := by
    rw [div_mul_eq_mul_div, ey, mul_div_cancel_left₀ _ hz3]
  have fy : y / z ^ 3 * (X1 - X2) = (Y1 - Y2) * (X1 - x / z ^ 2) - Y1 * (X1 - X2) := by
    apply mul_right_cancel₀ (pow_ne_zero 2 hd)
    linear_combination fy0 + (Y1 - Y2) * fx
  obtain ⟨h3, e⟩ := pt_add h1 h2 hx fx fy
  exact ⟨hz, _, _, h3, (div_mul_cancel₀ _ hz2).symm, (div_mul_cancel₀ _ hz3).symm, e⟩

theorem jp_double {X1 Y1 x y z : ZMod p} (h1 : Y1 ^ 2 = X1 ^ 3 + 7) (hz : z ≠ 0)
    (ex : x * (2 * Y1) ^ 2 = z ^ 2 * ((3 * X1 ^ 2) ^ 2 - 2 * X1 * (2 * Y1) ^ 2))
    (ey : y * (2 * Y1) ^ 3 = z ^ 3 * (3 * X1 ^ 2 * (3 * X1 * (2 * Y1) ^ 2 - (3 * X1 ^ 2) ^ 2) - Y1 * (2 * Y1) ^ 3)) :
    JP x y z (pt X1 Y1 h1 + pt X1 Y1 h1) := by
  have hd : 2 * Y1 ≠ 0 := mul_ne_zero two_ne (y_ne_zero h1)
  have hz2 := pow_ne_zero 2 hz
  have hz3 := pow_ne_zero 3 hz
  have fx : x / z ^ 2 * (2 * Y1) ^ 2 = (3 * X1 ^ 2) ^ 2 - 2 * X1 * (2 * Y1) ^ 2 := by
    rw [div_mul_eq_mul_div, ex, mul_div_cancel_left₀ _ hz2]
  have fy0 : y / z ^ 3 * (2 * Y1) ^ 3 = 3 * X1 ^ 2 * (3 * X1 * (2 * Y1) ^ 2 - (3 * X1 ^ 2) ^ 2) - Y1 * (2 * Y1) ^ 3 := by
    rw [div_mul_eq_mul_div, ey, mul_div_cancel_left₀ _ hz3]
  have fy : y / z ^ 3 * (2 * Y1) = 3 * X1 ^ 2 * (X1 - x / z ^ 2) - Y1 * (2 * Y1) := by
    apply mul_right_cancel₀ (pow_ne_zero 2 hd)
    linear_combination fy0 + 3 * X1 ^ 2 * fx
  obtain ⟨h3, e⟩ := pt_double h1 fx fy
  exact ⟨hz, _, _, h3, (div_mul_cancel₀ _ hz2).symm, (div_mul_cancel₀ _ hz3).symm, e⟩

end Tss.Secp
