import Verif.Lemmas.SecpGroup
import Verif.Model.SecpCurve
/-
The Jacobian formulas of btcec.go compute in the group of secp256k1.
-/
namespace Tss.Secp
open Tss

/-- The triple q represents the group element P: words of magnitude at most two; infinity is z = 0 or x = y = 0, in words. -/
def Jac.Rep (q : Jac) (P : E.Point) : Prop :=
  ∃ vx vy vz, q.x.Rp 2 vx ∧ q.y.Rp 2 vy ∧ q.z.Rp 2 vz ∧
    ((P = 0 ∧ (q.z = FV.zero ∨ (q.x = FV.zero ∧ q.y = FV.zero))) ∨ JP vx vy vz P)

theorem setInt_zero : FV.setInt 0 = FV.zero := rfl

theorem inf_rep : Jac.inf.Rep 0 :=
  ⟨0, 0, 0, FV.Rp.zero.mono (by norm_num), FV.Rp.zero.mono (by norm_num), FV.Rp.zero.mono (by norm_num), Or.inl ⟨rfl, Or.inl rfl⟩⟩

theorem FV.Rp.neg' {m : Nat} {f : FV} {v : ZMod p} (k : Nat) {K : UInt32} (hK : K.toNat = k) (hm : m ≤ k) (hk : k ≤ 61)
    (h : f.Rp m v) : (f.negate K).Rp (k + 1) (-v) := by
  have := h.neg K (by omega) (by omega)
  rwa [hK] at this

theorem FV.Rp.nz {m : Nat} {f : FV} {v : ZMod p} (h : f.Rp m v) (hv : v ≠ 0) : f ≠ FV.zero := by
  rintro rfl
  exact hv (h.2.symm.trans FV.Rp.zero.2)

theorem Jac.rep_of {q : Jac} {x y z : ZMod p} {P : E.Point} (hx : q.x.Rp 1 x) (hy : q.y.Rp 1 y) (hz : q.z.Rp 1 z) (h : JP x y z P) :
    q.Rep P :=
  ⟨x, y, z, hx.mono (by norm_num), hy.mono (by norm_num), hz.mono (by norm_num), Or.inr h⟩

theorem doubleZ1EqualsOne_rep {x1 y1 : FV} {a b : ZMod p} (hx : x1.Rp 2 a) (hy : y1.Rp 2 b) (h : b ^ 2 = a ^ 3 + 7) :
    (doubleZ1EqualsOne x1 y1).Rep (pt a b h + pt a b h) := by
  unfold doubleZ1EqualsOne
  extract_lets z3 A B C B' D D' Ee F X3 X3' F' Y3 Y3'
  have hz3 : z3.Rp 4 _ := hy.mulInt 2 (by norm_num) (by norm_num)
  have hA : A.Rp 1 _ := hx.square (by norm_num)
  have hB : B.Rp 1 _ := hy.square (by norm_num)
  have hC : C.Rp 1 _ := hB.square (by norm_num)
  have hB' : B'.Rp 1 _ := (hB.add hx (by norm_num)).square (by norm_num)
  have hD : D.Rp 3 _ := (hA.add hC (by norm_num)).neg' 2 rfl (by norm_num) (by norm_num)
  have hD' : D'.Rp 8 _ := (hD.add hB' (by norm_num)).mulInt 2 (by norm_num) (by norm_num)
  have hE : Ee.Rp 3 _ := hA.mulInt 3 (by norm_num) (by norm_num)
  have hF : F.Rp 1 _ := hE.square (by norm_num)
  have hX3 : X3.Rp 17 _ := (hD'.mulInt 2 (by norm_num) (by norm_num)).neg' 16 rfl (by norm_num) (by norm_num)
  have hX3' : X3'.Rp 18 _ := hX3.add hF (by norm_num)
  have hF' : F'.Rp 1 _ := (((hX3'.neg' 18 rfl (by norm_num) (by norm_num)).add hD' (by norm_num)).norm (by norm_num)).1
  have hY3 : Y3.Rp 9 _ := (hC.mulInt 8 (by norm_num) (by norm_num)).neg' 8 rfl (by norm_num) (by norm_num)
  have hY3' : Y3'.Rp 10 _ := hY3.add (hF'.mul hE (by norm_num) (by norm_num)) (by norm_num)
  refine Jac.rep_of (hX3'.norm (by norm_num)).1 (hY3'.norm (by norm_num)).1 (hz3.norm (by norm_num)).1 ?_
  refine jp_double h ?_ ?_ ?_
  · push_cast; exact mul_ne_zero (y_ne_zero h) two_ne
  · push_cast; ring
  · push_cast; ring

theorem doubleGeneric_rep {x1 y1 z1 : FV} {a b c : ZMod p} {P : E.Point} (hx : x1.Rp 2 a) (hy : y1.Rp 2 b) (hz : z1.Rp 2 c)
    (h : JP a b c P) : (doubleGeneric x1 y1 z1).Rep (P + P) := by
  obtain ⟨hc, X, Y, hXY, rfl, rfl, rfl⟩ := h
  unfold doubleGeneric
  extract_lets z3 A B C B' D D' Ee F X3 X3' F' Y3 Y3'
  have hz3 : z3.Rp 2 _ := (hy.mul hz (by norm_num) (by norm_num)).mulInt 2 (by norm_num) (by norm_num)
  have hA : A.Rp 1 _ := hx.square (by norm_num)
  have hB : B.Rp 1 _ := hy.square (by norm_num)
  have hC : C.Rp 1 _ := hB.square (by norm_num)
  have hB' : B'.Rp 1 _ := (hB.add hx (by norm_num)).square (by norm_num)
  have hD : D.Rp 3 _ := (hA.add hC (by norm_num)).neg' 2 rfl (by norm_num) (by norm_num)
  have hD' : D'.Rp 8 _ := (hD.add hB' (by norm_num)).mulInt 2 (by norm_num) (by norm_num)
  have hE : Ee.Rp 3 _ := hA.mulInt 3 (by norm_num) (by norm_num)
  have hF : F.Rp 1 _ := hE.square (by norm_num)
  have hX3 : X3.Rp 17 _ := (hD'.mulInt 2 (by norm_num) (by norm_num)).neg' 16 rfl (by norm_num) (by norm_num)
  have hX3' : X3'.Rp 18 _ := hX3.add hF (by norm_num)
  have hF' : F'.Rp 1 _ := (((hX3'.neg' 18 rfl (by norm_num) (by norm_num)).add hD' (by norm_num)).norm (by norm_num)).1
  have hY3 : Y3.Rp 9 _ := (hC.mulInt 8 (by norm_num) (by norm_num)).neg' 8 rfl (by norm_num) (by norm_num)
  have hY3' : Y3'.Rp 10 _ := hY3.add (hF'.mul hE (by norm_num) (by norm_num)) (by norm_num)
  refine Jac.rep_of (hX3'.norm (by norm_num)).1 (hY3'.norm (by norm_num)).1 (hz3.norm (by norm_num)).1 ?_
  refine jp_double hXY ?_ ?_ ?_
  · push_cast
    exact mul_ne_zero (mul_ne_zero (mul_ne_zero (y_ne_zero hXY) (pow_ne_zero _ hc)) hc) two_ne
  · push_cast; ring
  · push_cast; ring

theorem isZero_false {f : FV} (h : f ≠ FV.zero) : f.isZero = false := by
  rw [← Bool.not_eq_true, isZero_iff]; exact h

theorem fieldOne_rp : fieldOne.Rp 1 1 := by
  have := FV.Rp.setInt 1 (by norm_num)
  rwa [Nat.cast_one] at this

theorem fieldOne_norm : fieldOne.Norm := (setInt_spec 1 (by norm_num)).1

theorem equals_one {m : Nat} {f : FV} {v : ZMod p} (hf : f.Norm) (rf : f.Rp m v) : f.equals fieldOne = true ↔ v = 1 :=
  hf.equals fieldOne_norm rf fieldOne_rp

theorem doubleJacobian_rep {q : Jac} {P : E.Point} (h : q.Rep P) : (doubleJacobian q).Rep (P + P) := by
  obtain ⟨vx, vy, vz, hx, hy, hz, h | h⟩ := h
  · obtain ⟨rfl, h⟩ := h
    have : (q.y.isZero || q.z.isZero) = true := by
      rcases h with h | ⟨-, h⟩
      · rw [h, Bool.or_eq_true]; exact Or.inr ((isZero_iff _).2 rfl)
      · rw [h, Bool.or_eq_true]; exact Or.inl ((isZero_iff _).2 rfl)
    unfold doubleJacobian
    rw [if_pos this, add_zero]
    exact inf_rep
  · have h' := h
    obtain ⟨hc, X, Y, hXY, ex, ey, rfl⟩ := h'
    have yz : vy ≠ 0 := by rw [ey]; exact mul_ne_zero (y_ne_zero hXY) (pow_ne_zero _ hc)
    unfold doubleJacobian
    rw [isZero_false (hy.nz yz), isZero_false (hz.nz hc), if_neg (by simp)]
    obtain ⟨rz, nz⟩ := hz.norm (by norm_num)
    simp only
    by_cases e : q.z.normalize.equals fieldOne = true
    · rw [if_pos e]
      have := (equals_one nz rz).1 e
      subst this
      have e1 : vx = X := by rw [ex]; ring
      have e2 : vy = Y := by rw [ey]; ring
      subst e1 e2
      exact doubleZ1EqualsOne_rep hx hy hXY
    · rw [if_neg e]
      exact doubleGeneric_rep hx hy (rz.mono (by norm_num)) h

theorem addZ1AndZ2EqualsOne_rep {x1 y1 z1 x2 y2 : FV} {a b c d : ZMod p} (hx : x1.Rp 2 a) (hy : y1.Rp 2 b) (hz : z1.Rp 2 1)
    (hx2 : x2.Rp 2 c) (hy2 : y2.Rp 2 d) (h1 : b ^ 2 = a ^ 3 + 7) (h2 : d ^ 2 = c ^ 3 + 7) :
    (addZ1AndZ2EqualsOne x1 y1 z1 x2 y2).Rep (pt a b h1 + pt c d h2) := by
  obtain ⟨rx1, nx1⟩ := hx.norm (by norm_num)
  obtain ⟨ry1, ny1⟩ := hy.norm (by norm_num)
  obtain ⟨rx2, nx2⟩ := hx2.norm (by norm_num)
  obtain ⟨ry2, ny2⟩ := hy2.norm (by norm_num)
  unfold addZ1AndZ2EqualsOne
  simp only
  generalize x1.normalize = x1 at *
  generalize y1.normalize = y1 at *
  generalize x2.normalize = x2 at *
  generalize y2.normalize = y2 at *
  by_cases ex : x1.equals x2 = true
  · rw [if_pos ex]
    have ex' := (nx1.equals nx2 rx1 rx2).1 ex
    by_cases ey : y1.equals y2 = true
    · rw [if_pos ey]
      have ey' := (ny1.equals ny2 ry1 ry2).1 ey
      rw [← pt_congr (h := h1) ex' ey']
      refine doubleJacobian_rep ⟨a, b, 1, rx1.mono (by norm_num), ry1.mono (by norm_num), hz, Or.inr ?_⟩
      exact ⟨one_ne_zero, a, b, h1, by ring, by ring, rfl⟩
    · rw [if_neg ey]
      have ey' : b ≠ d := fun e => ey ((ny1.equals ny2 ry1 ry2).2 e)
      rw [pt_add_neg h1 h2 ex' ey']
      exact inf_rep
  · rw [if_neg ex]
    have ex' : a ≠ c := fun e => ex ((nx1.equals nx2 rx1 rx2).2 e)
    have hh : FV.Rp 3 _ _ := (rx1.neg' (K := 1) 1 rfl (by norm_num) (by norm_num)).add rx2 (by norm_num)
    have hi : FV.Rp 4 _ _ := (hh.square (by norm_num)).mulInt 4 (by norm_num) (by norm_num)
    have hj : FV.Rp 1 _ _ := hh.mul hi (by norm_num) (by norm_num)
    have hr : FV.Rp 6 _ _ := ((ry1.neg' (K := 1) 1 rfl (by norm_num) (by norm_num)).add ry2 (by norm_num)).mulInt 2 (by norm_num) (by norm_num)
    have hv : FV.Rp 1 _ _ := rx1.mul hi (by norm_num) (by norm_num)
    have hnJ : FV.Rp 2 _ _ := hj.neg' (K := 1) 1 rfl (by norm_num) (by norm_num)
    have hn2V : FV.Rp 3 _ _ := (hv.mulInt 2 (by norm_num) (by norm_num)).neg' (K := 2) 2 rfl (by norm_num) (by norm_num)
    have hx3 : FV.Rp 6 _ _ := ((hr.square (by norm_num)).add hnJ (by norm_num)).add hn2V (by norm_num)
    have hnx3 : FV.Rp 7 _ _ := hx3.neg' (K := 6) 6 rfl (by norm_num) (by norm_num)
    have hj' : FV.Rp 3 _ _ :=
      ((hj.mul ry1 (by norm_num) (by norm_num)).mulInt 2 (by norm_num) (by norm_num)).neg' (K := 2) 2 rfl (by norm_num) (by norm_num)
    have hy3 : FV.Rp 4 _ _ := ((hv.add hnx3 (by norm_num)).mul hr (by norm_num) (by norm_num)).add hj' (by norm_num)
    have hz3 : FV.Rp 6 _ _ := hh.mulInt 2 (by norm_num) (by norm_num)
    refine Jac.rep_of (hx3.norm (by norm_num)).1 (hy3.norm (by norm_num)).1 (hz3.norm (by norm_num)).1 ?_
    have hd : c - a ≠ 0 := sub_ne_zero.2 (Ne.symm ex')
    refine jp_add h1 h2 ex' ?_ ?_ ?_
    · push_cast
      rw [neg_add_eq_sub]
      exact mul_ne_zero hd two_ne
    · push_cast; ring
    · push_cast; ring

theorem addZ1EqualsZ2_rep {x1 y1 z1 x2 y2 : FV} {a b c d e : ZMod p} {P Q : E.Point} (hx : x1.Rp 2 a) (hy : y1.Rp 2 b)
    (hz : z1.Rp 1 e) (hx2 : x2.Rp 2 c) (hy2 : y2.Rp 2 d) (h1 : JP a b e P) (h2 : JP c d e Q) :
    (addZ1EqualsZ2 x1 y1 z1 x2 y2).Rep (P + Q) := by
  obtain ⟨rx1, nx1⟩ := hx.norm (by norm_num)
  obtain ⟨ry1, ny1⟩ := hy.norm (by norm_num)
  obtain ⟨rx2, nx2⟩ := hx2.norm (by norm_num)
  obtain ⟨ry2, ny2⟩ := hy2.norm (by norm_num)
  have h1' := h1
  obtain ⟨he, X1, Y1, hXY1, ea, eb, rfl⟩ := h1'
  obtain ⟨-, X2, Y2, hXY2, ec, ed, rfl⟩ := h2
  have he2 := pow_ne_zero 2 he
  have he3 := pow_ne_zero 3 he
  unfold addZ1EqualsZ2
  simp only
  generalize x1.normalize = x1 at *
  generalize y1.normalize = y1 at *
  generalize x2.normalize = x2 at *
  generalize y2.normalize = y2 at *
  by_cases ex : x1.equals x2 = true
  · rw [if_pos ex]
    have ex' := (nx1.equals nx2 rx1 rx2).1 ex
    have eX : X1 = X2 := mul_right_cancel₀ he2 (by rw [← ea, ← ec, ex'])
    by_cases ey : y1.equals y2 = true
    · rw [if_pos ey]
      have ey' := (ny1.equals ny2 ry1 ry2).1 ey
      have eY : Y1 = Y2 := mul_right_cancel₀ he3 (by rw [← eb, ← ed, ey'])
      rw [← pt_congr (h := hXY1) eX eY]
      exact doubleJacobian_rep ⟨a, b, e, rx1.mono (by norm_num), ry1.mono (by norm_num), hz.mono (by norm_num), Or.inr h1⟩
    · rw [if_neg ey]
      have ey' : b ≠ d := fun e => ey ((ny1.equals ny2 ry1 ry2).2 e)
      have eY : Y1 ≠ Y2 := by rintro rfl; exact ey' (by rw [eb, ed])
      rw [pt_add_neg hXY1 hXY2 eX eY]
      exact inf_rep
  · rw [if_neg ex]
    have ex' : a ≠ c := fun e => ex ((nx1.equals nx2 rx1 rx2).2 e)
    have eX : X1 ≠ X2 := by rintro rfl; exact ex' (by rw [ea, ec])
    have hnx : FV.Rp 2 _ _ := rx1.neg' (K := 1) 1 rfl (by norm_num) (by norm_num)
    have hny : FV.Rp 2 _ _ := ry1.neg' (K := 1) 1 rfl (by norm_num) (by norm_num)
    have hA : FV.Rp 3 _ _ := hnx.add rx2 (by norm_num)
    have hB : FV.Rp 1 _ _ := hA.square (by norm_num)
    have hC : FV.Rp 3 _ _ := hny.add ry2 (by norm_num)
    have hD : FV.Rp 1 _ _ := hC.square (by norm_num)
    have hE : FV.Rp 1 _ _ := rx1.mul hB (by norm_num) (by norm_num)
    have hnE : FV.Rp 2 _ _ := hE.neg' (K := 1) 1 rfl (by norm_num) (by norm_num)
    have hF : FV.Rp 1 _ _ := rx2.mul hB (by norm_num) (by norm_num)
    have hx3 : FV.Rp 5 _ _ := ((hE.add hF (by norm_num)).neg' (K := 3) 3 rfl (by norm_num) (by norm_num)).add hD (by norm_num)
    have hnx3 : FV.Rp 1 _ _ := ((hx3.neg' (K := 5) 5 rfl (by norm_num) (by norm_num)).norm (by norm_num)).1
    have hy3 : FV.Rp 4 _ _ :=
      (ry1.mul (hF.add hnE (by norm_num)) (by norm_num) (by norm_num)).neg' (K := 3) 3 rfl (by norm_num) (by norm_num)
    have hy3' : FV.Rp 5 _ _ := hy3.add ((hE.add hnx3 (by norm_num)).mul hC (by norm_num) (by norm_num)) (by norm_num)
    have hz3 : FV.Rp 1 _ _ := hz.mul hA (by norm_num) (by norm_num)
    refine Jac.rep_of (hx3.norm (by norm_num)).1 (hy3'.norm (by norm_num)).1 hz3 ?_
    have hd : c - a ≠ 0 := sub_ne_zero.2 (Ne.symm ex')
    refine jp_add hXY1 hXY2 eX ?_ ?_ ?_
    · rw [neg_add_eq_sub]
      exact mul_ne_zero he hd
    · rw [ea, eb, ec, ed]; ring
    · rw [ea, eb, ec, ed]; ring

theorem addZ2EqualsOne_rep {x1 y1 z1 x2 y2 : FV} {a b c d e : ZMod p} {P : E.Point} (hx : x1.Rp 2 a) (hy : y1.Rp 2 b)
    (hz : z1.Rp 1 e) (hx2 : x2.Rp 2 c) (hy2 : y2.Rp 2 d) (h1 : JP a b e P) (h2 : d ^ 2 = c ^ 3 + 7) :
    (addZ2EqualsOne x1 y1 z1 x2 y2).Rep (P + pt c d h2) := by
  obtain ⟨rx1, nx1⟩ := hx.norm (by norm_num)
  obtain ⟨ry1, ny1⟩ := hy.norm (by norm_num)
  have h1' := h1
  obtain ⟨he, X1, Y1, hXY1, ea, eb, rfl⟩ := h1'
  have he2 := pow_ne_zero 2 he
  have he3 := pow_ne_zero 3 he
  unfold addZ2EqualsOne
  simp only
  generalize x1.normalize = x1 at *
  generalize y1.normalize = y1 at *
  have hzz : z1.square.Rp 1 _ := hz.square (by norm_num)
  obtain ⟨ru2, nu2⟩ := (hx2.mul hzz (by norm_num) (by norm_num)).norm (by norm_num)
  obtain ⟨rs2, ns2⟩ := ((hy2.mul hzz (by norm_num) (by norm_num)).mul hz (by norm_num) (by norm_num)).norm (by norm_num)
  generalize (x2.mul z1.square).normalize = u2 at *
  generalize ((y2.mul z1.square).mul z1).normalize = s2 at *
  by_cases ex : x1.equals u2 = true
  · rw [if_pos ex]
    have ex' := (nx1.equals nu2 rx1 ru2).1 ex
    have eX : X1 = c := mul_right_cancel₀ he2 (by rw [← ea, ex'])
    by_cases ey : y1.equals s2 = true
    · rw [if_pos ey]
      have ey' := (ny1.equals ns2 ry1 rs2).1 ey
      have eY : Y1 = d := mul_right_cancel₀ he3 (by rw [← eb, ey']; ring)
      rw [← pt_congr (h := hXY1) eX eY]
      exact doubleJacobian_rep ⟨a, b, e, rx1.mono (by norm_num), ry1.mono (by norm_num), hz.mono (by norm_num), Or.inr h1⟩
    · rw [if_neg ey]
      have eY : Y1 ≠ d := by
        rintro rfl; exact ey ((ny1.equals ns2 ry1 rs2).2 (by rw [eb]; ring))
      rw [pt_add_neg hXY1 h2 eX eY]
      exact inf_rep
  · rw [if_neg ex]
    have eX : X1 ≠ c := by rintro rfl; exact ex ((nx1.equals nu2 rx1 ru2).2 ea)
    have hnx : FV.Rp 2 _ _ := rx1.neg' (K := 1) 1 rfl (by norm_num) (by norm_num)
    have ch : FV.Rp 3 _ _ := ru2.add hnx (by norm_num)
    have chh : FV.Rp 1 _ _ := ch.square (by norm_num)
    have ci : FV.Rp 4 _ _ := chh.mulInt 4 (by norm_num) (by norm_num)
    have cj : FV.Rp 1 _ _ := ch.mul ci (by norm_num) (by norm_num)
    have hny : FV.Rp 2 _ _ := ry1.neg' (K := 1) 1 rfl (by norm_num) (by norm_num)
    have cr : FV.Rp 6 _ _ := (rs2.add hny (by norm_num)).mulInt 2 (by norm_num) (by norm_num)
    have crr : FV.Rp 1 _ _ := cr.square (by norm_num)
    have cv : FV.Rp 1 _ _ := rx1.mul ci (by norm_num) (by norm_num)
    have cx3 : FV.Rp 4 _ _ :=
      ((cv.mulInt 2 (by norm_num) (by norm_num)).add cj (by norm_num)).neg' (K := 3) 3 rfl (by norm_num) (by norm_num)
    have cx3' : FV.Rp 5 _ _ := cx3.add crr (by norm_num)
    have cnx3 : FV.Rp 6 _ _ := cx3'.neg' (K := 5) 5 rfl (by norm_num) (by norm_num)
    have cy3 : FV.Rp 3 _ _ :=
      ((ry1.mul cj (by norm_num) (by norm_num)).mulInt 2 (by norm_num) (by norm_num)).neg' (K := 2) 2 rfl (by norm_num) (by norm_num)
    have cy3' : FV.Rp 4 _ _ := cy3.add ((cv.add cnx3 (by norm_num)).mul cr (by norm_num) (by norm_num)) (by norm_num)
    have cz3 : FV.Rp 1 _ _ := (hz.add ch (by norm_num)).square (by norm_num)
    have cz3' : FV.Rp 4 _ _ := cz3.add ((hzz.add chh (by norm_num)).neg' (K := 2) 2 rfl (by norm_num) (by norm_num)) (by norm_num)
    refine Jac.rep_of (cx3'.norm (by norm_num)).1 (cy3'.norm (by norm_num)).1 (cz3'.norm (by norm_num)).1 ?_
    have hd : c - X1 ≠ 0 := sub_ne_zero.2 (Ne.symm eX)
    refine jp_add hXY1 h2 eX ?_ ?_ ?_
    · have : (e + (c * e ^ 2 + -a)) ^ 2 + -(e ^ 2 + (c * e ^ 2 + -a) ^ 2) = 2 * e ^ 3 * (c - X1) := by rw [ea]; ring
      rw [this]
      exact mul_ne_zero (mul_ne_zero two_ne he3) hd
    · rw [ea, eb]; push_cast; ring
    · rw [ea, eb]; push_cast; ring

theorem addGeneric_rep {x1 y1 z1 x2 y2 z2 : FV} {a b c d e f : ZMod p} {P Q : E.Point} (hx : x1.Rp 2 a) (hy : y1.Rp 2 b)
    (hz : z1.Rp 1 e) (hx2 : x2.Rp 2 c) (hy2 : y2.Rp 2 d) (hz2 : z2.Rp 1 f) (h1 : JP a b e P) (h2 : JP c d f Q) :
    (addGeneric x1 y1 z1 x2 y2 z2).Rep (P + Q) := by
  have h1' := h1
  obtain ⟨he, X1, Y1, hXY1, ea, eb, rfl⟩ := h1'
  obtain ⟨hf, X2, Y2, hXY2, ec, ed, rfl⟩ := h2
  have he2 := pow_ne_zero 2 he
  have he3 := pow_ne_zero 3 he
  have hf2 := pow_ne_zero 2 hf
  have hf3 := pow_ne_zero 3 hf
  unfold addGeneric
  simp only
  have hzz : z1.square.Rp 1 _ := hz.square (by norm_num)
  have hzz2 : z2.square.Rp 1 _ := hz2.square (by norm_num)
  obtain ⟨ru1, nu1⟩ := (hx.mul hzz2 (by norm_num) (by norm_num)).norm (by norm_num)
  obtain ⟨ru2, nu2⟩ := (hx2.mul hzz (by norm_num) (by norm_num)).norm (by norm_num)
  obtain ⟨rs1, ns1⟩ := ((hy.mul hzz2 (by norm_num) (by norm_num)).mul hz2 (by norm_num) (by norm_num)).norm (by norm_num)
  obtain ⟨rs2, ns2⟩ := ((hy2.mul hzz (by norm_num) (by norm_num)).mul hz (by norm_num) (by norm_num)).norm (by norm_num)
  generalize (x1.mul z2.square).normalize = u1 at *
  generalize (x2.mul z1.square).normalize = u2 at *
  generalize ((y1.mul z2.square).mul z2).normalize = s1 at *
  generalize ((y2.mul z1.square).mul z1).normalize = s2 at *
  by_cases ex : u1.equals u2 = true
  · rw [if_pos ex]
    have ex' := (nu1.equals nu2 ru1 ru2).1 ex
    have eX : X1 = X2 := mul_right_cancel₀ (mul_ne_zero he2 hf2) (by rw [← mul_assoc, ← ea, ex', ec]; ring)
    by_cases ey : s1.equals s2 = true
    · rw [if_pos ey]
      have ey' := (ns1.equals ns2 rs1 rs2).1 ey
      have eY : Y1 = Y2 := mul_right_cancel₀ (mul_ne_zero he3 hf3) (by
        rw [← mul_assoc, ← eb]
        calc b * f ^ 3 = b * f ^ 2 * f := by ring
          _ = _ := by rw [ey', ed]; ring)
      rw [← pt_congr (h := hXY1) eX eY]
      exact doubleJacobian_rep ⟨a, b, e, hx, hy, hz.mono (by norm_num), Or.inr h1⟩
    · rw [if_neg ey]
      have eY : Y1 ≠ Y2 := by
        rintro rfl; exact ey ((ns1.equals ns2 rs1 rs2).2 (by rw [eb, ed]; ring))
      rw [pt_add_neg hXY1 hXY2 eX eY]
      exact inf_rep
  · rw [if_neg ex]
    have eX : X1 ≠ X2 := by rintro rfl; exact ex ((nu1.equals nu2 ru1 ru2).2 (by rw [ea, ec]; ring))
    have hnu : FV.Rp 2 _ _ := ru1.neg' (K := 1) 1 rfl (by norm_num) (by norm_num)
    have ch : FV.Rp 3 _ _ := ru2.add hnu (by norm_num)
    have ci : FV.Rp 1 _ _ := (ch.mulInt 2 (by norm_num) (by norm_num)).square (by norm_num)
    have cj : FV.Rp 1 _ _ := ch.mul ci (by norm_num) (by norm_num)
    have hns : FV.Rp 2 _ _ := rs1.neg' (K := 1) 1 rfl (by norm_num) (by norm_num)
    have cr : FV.Rp 6 _ _ := (rs2.add hns (by norm_num)).mulInt 2 (by norm_num) (by norm_num)
    have crr : FV.Rp 1 _ _ := cr.square (by norm_num)
    have cv : FV.Rp 1 _ _ := ru1.mul ci (by norm_num) (by norm_num)
    have cx3 : FV.Rp 4 _ _ :=
      ((cv.mulInt 2 (by norm_num) (by norm_num)).add cj (by norm_num)).neg' (K := 3) 3 rfl (by norm_num) (by norm_num)
    have cx3' : FV.Rp 5 _ _ := cx3.add crr (by norm_num)
    have cnx3 : FV.Rp 6 _ _ := cx3'.neg' (K := 5) 5 rfl (by norm_num) (by norm_num)
    have cy3 : FV.Rp 3 _ _ :=
      ((rs1.mul cj (by norm_num) (by norm_num)).mulInt 2 (by norm_num) (by norm_num)).neg' (K := 2) 2 rfl (by norm_num) (by norm_num)
    have cy3' : FV.Rp 4 _ _ := cy3.add ((cv.add cnx3 (by norm_num)).mul cr (by norm_num) (by norm_num)) (by norm_num)
    have cz3 : FV.Rp 1 _ _ := (hz.add hz2 (by norm_num)).square (by norm_num)
    have cz3' : FV.Rp 4 _ _ := cz3.add ((hzz.add hzz2 (by norm_num)).neg' (K := 2) 2 rfl (by norm_num) (by norm_num)) (by norm_num)
    have cz3'' : FV.Rp 1 _ _ := cz3'.mul ch (by norm_num) (by norm_num)
    refine Jac.rep_of (cx3'.norm (by norm_num)).1 (cy3'.norm (by norm_num)).1 cz3'' ?_
    have hd : X2 - X1 ≠ 0 := sub_ne_zero.2 (Ne.symm eX)
    refine jp_add hXY1 hXY2 eX ?_ ?_ ?_
    · have : ((e + f) ^ 2 + -(e ^ 2 + f ^ 2)) * (c * e ^ 2 + -(a * f ^ 2)) = 2 * e ^ 3 * f ^ 3 * (X2 - X1) := by
        rw [ea, ec]; ring
      rw [this]
      exact mul_ne_zero (mul_ne_zero (mul_ne_zero two_ne he3) hf3) hd
    · rw [ea, eb, ec, ed]; push_cast; ring
    · rw [ea, eb, ec, ed]; push_cast; ring

theorem jp_nonzero {x y z : ZMod p} {P : E.Point} (h : JP x y z P) : z ≠ 0 ∧ y ≠ 0 := by
  obtain ⟨hz, X, Y, hXY, -, ey, -⟩ := h
  exact ⟨hz, by rw [ey]; exact mul_ne_zero (y_ne_zero hXY) (pow_ne_zero _ hz)⟩

theorem addJacobian_rep {q1 q2 : Jac} {P Q : E.Point} (h1 : q1.Rep P) (h2 : q2.Rep Q) : (addJacobian q1 q2).Rep (P + Q) := by
  have test : ∀ {q : Jac} {P : E.Point}, q.Rep P → (((q.x.isZero && q.y.isZero) || q.z.isZero) = true ↔ P = 0) := by
    rintro q P ⟨vx, vy, vz, hx, hy, hz, ⟨rfl, h⟩ | h⟩
    · simp only [Bool.or_eq_true, Bool.and_eq_true, isZero_iff, iff_true]
      tauto
    · obtain ⟨a, b⟩ := jp_nonzero h
      rw [isZero_false (hy.nz b), isZero_false (hz.nz a)]
      obtain ⟨-, X, Y, hXY, -, -, rfl⟩ := h
      simp [pt_ne_zero]
  have t1 := test h1
  have t2 := test h2
  unfold addJacobian
  by_cases c1 : ((q1.x.isZero && q1.y.isZero) || q1.z.isZero) = true
  · rw [if_pos c1, t1.1 c1, zero_add]; exact h2
  rw [if_neg c1]
  by_cases c2 : ((q2.x.isZero && q2.y.isZero) || q2.z.isZero) = true
  · rw [if_pos c2, t2.1 c2, add_zero]; exact h1
  rw [if_neg c2]
  have n1 : P ≠ 0 := fun e => c1 (t1.2 e)
  have n2 : Q ≠ 0 := fun e => c2 (t2.2 e)
  obtain ⟨a, b, e, hx1, hy1, hz1, ⟨rfl, -⟩ | j1⟩ := h1
  · exact absurd rfl n1
  obtain ⟨c, d, f, hx2, hy2, hz2, ⟨rfl, -⟩ | j2⟩ := h2
  · exact absurd rfl n2
  obtain ⟨rz1, nz1⟩ := hz1.norm (by norm_num)
  obtain ⟨rz2, nz2⟩ := hz2.norm (by norm_num)
  simp only
  have o1 := equals_one nz1 rz1
  have o2 := equals_one nz2 rz2
  have oe := nz1.equals nz2 rz1 rz2
  have unit : ∀ {x y : ZMod p} {P : E.Point}, JP x y 1 P → ∃ h, P = pt x y h := by
    rintro x y P ⟨-, X, Y, hXY, ex, ey, rfl⟩
    have e1 : x = X := by rw [ex]; ring
    have e2 : y = Y := by rw [ey]; ring
    subst e1 e2
    exact ⟨hXY, rfl⟩
  by_cases u1 : q1.z.normalize.equals fieldOne = true
  · by_cases u2 : q2.z.normalize.equals fieldOne = true
    · rw [u1, u2, if_pos (by simp)]
      have := o1.1 u1; subst this
      have := o2.1 u2; subst this
      obtain ⟨g1, rfl⟩ := unit j1
      obtain ⟨g2, rfl⟩ := unit j2
      exact addZ1AndZ2EqualsOne_rep hx1 hy1 (rz1.mono (by norm_num)) hx2 hy2 g1 g2
    · rw [if_neg (by simp [u2])]
      by_cases ue : q1.z.normalize.equals q2.z.normalize = true
      · rw [if_pos ue]
        have := oe.1 ue; subst this
        exact addZ1EqualsZ2_rep hx1 hy1 rz1 hx2 hy2 j1 j2
      · rw [if_neg ue, if_neg u2]
        exact addGeneric_rep hx1 hy1 rz1 hx2 hy2 rz2 j1 j2
  · rw [if_neg (by simp [u1])]
    by_cases ue : q1.z.normalize.equals q2.z.normalize = true
    · rw [if_pos ue]
      have := oe.1 ue; subst this
      exact addZ1EqualsZ2_rep hx1 hy1 rz1 hx2 hy2 j1 j2
    · rw [if_neg ue]
      by_cases u2 : q2.z.normalize.equals fieldOne = true
      · rw [if_pos u2]
        have := o2.1 u2; subst this
        obtain ⟨g2, rfl⟩ := unit j2
        exact addZ2EqualsOne_rep hx1 hy1 rz1 hx2 hy2 j1 g2
      · rw [if_neg u2]
        exact addGeneric_rep hx1 hy1 rz1 hx2 hy2 rz2 j1 j2

/-! ### Affine coordinates -/

/-- The residue a coordinate given as a big integer stands for: the first 32 bytes of its absolute value. -/
def res (x : Int) : ZMod p := (beNat ((intBytes x).take 32) : ℕ)

theorem toField_rp (x : Int) : (toField x).Rp 1 (res x) := by
  unfold toField res
  have e : FV.setByteSlice (intBytes x) = FV.setByteSlice ((intBytes x).take 32) := by
    by_cases h : (intBytes x).length > 32
    · unfold FV.setByteSlice
      rw [if_pos h, if_neg (by rw [List.length_take]; omega)]
    · rw [List.take_of_length_le (by omega)]
  rw [e]
  exact FV.Rp.setByteSlice (by rw [List.length_take]; omega)

theorem isOnCurve_iff (x y : Int) : isOnCurve x y = true ↔ res y ^ 2 = res x ^ 3 + 7 := by
  unfold isOnCurve
  simp only
  have hx := toField_rp x
  have hy := toField_rp y
  obtain ⟨r1, n1⟩ := (hy.square (by norm_num)).norm (by norm_num)
  obtain ⟨r2, n2⟩ := (((hx.square (by norm_num)).mul hx (by norm_num) (by norm_num)).addInt 7 (by norm_num) (by norm_num)).norm
    (by norm_num)
  rw [n1.equals n2 r1 r2]
  push_cast
  rw [pow_succ (res x) 2]

/-- The affine coordinates of a group element; (0, 0) for infinity. -/
def coords : E.Point → Int × Int
  | .zero => (0, 0)
  | .some x y _ => ((x.val : Int), (y.val : Int))

theorem coords_zero : coords 0 = (0, 0) := rfl

theorem coords_pt {x y : ZMod p} (h : y ^ 2 = x ^ 3 + 7) : coords (pt x y h) = ((x.val : Int), (y.val : Int)) := rfl

theorem toAffine_rep {q : Jac} {P : E.Point} (h : q.Rep P) : q.toAffine = coords P := by
  obtain ⟨a, b, c, hx, hy, hz, h⟩ := h
  unfold Jac.toAffine
  simp only
  have hi := hz.inverse (by norm_num)
  have ht := hi.square (by norm_num)
  obtain ⟨r1, n1⟩ := (hx.mul ht (by norm_num) (by norm_num)).norm (by norm_num)
  obtain ⟨r2, n2⟩ := (hy.mul (ht.mul hi (by norm_num) (by norm_num)) (by norm_num) (by norm_num)).norm (by norm_num)
  rw [n1.bytes r1, n2.bytes r2]
  rcases h with ⟨rfl, h⟩ | ⟨hc, X, Y, hXY, ea, eb, rfl⟩
  · rw [coords_zero]
    rcases h with h | ⟨h, h'⟩
    · have : c = 0 := by rw [← hz.2, h]; exact FV.Rp.zero.2
      rw [this]; simp
    · have e1 : a = 0 := by rw [← hx.2, h]; exact FV.Rp.zero.2
      have e2 : b = 0 := by rw [← hy.2, h']; exact FV.Rp.zero.2
      rw [e1, e2]; simp
  · rw [coords_pt]
    have e1 : a * c⁻¹ ^ 2 = X := by rw [ea]; field_simp
    have e2 : b * (c⁻¹ ^ 2 * c⁻¹) = Y := by rw [eb]; field_simp
    rw [e1, e2]

end Tss.Secp
