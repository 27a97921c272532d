import Verif.Lemmas.SecpMult
/-
ScalarMult of the encoding (0, 0) of infinity: the negated y-coordinate is zero modulo P but not in words, so the tests for
infinity miss it; every intermediate value nevertheless stays at x = y = 0 modulo P.
-/
namespace Tss.Secp
open Tss

/-- x and y are zero modulo P. -/
def Jac.Null (q : Jac) : Prop := ∃ vz, q.x.Rp 2 0 ∧ q.y.Rp 2 0 ∧ q.z.Rp 2 vz

theorem inf_null : Jac.inf.Null :=
  ⟨0, FV.Rp.zero.mono (by norm_num), FV.Rp.zero.mono (by norm_num), FV.Rp.zero.mono (by norm_num)⟩

theorem doubleZ1_null {x1 y1 : FV} (hx : x1.Rp 2 0) (hy : y1.Rp 2 0) : (doubleZ1EqualsOne x1 y1).Null := by
  unfold doubleZ1EqualsOne
  extract_lets z3 A B C B' D D' Ee F X3 X3' F' Y3 Y3'
  have hz3 : z3.Rp 4 _ := hy.mulInt 2 (by norm_num) (by norm_num)
  have hA : A.Rp 1 _ := hx.square (by norm_num)
  have hB : B.Rp 1 _ := hy.square (by norm_num)
  have hC : C.Rp 1 _ := hB.square (by norm_num)
  have hB' : B'.Rp 1 _ := (hB.add hx (by norm_num)).square (by norm_num)
  have hD : D.Rp 3 _ := (hA.add hC (by norm_num)).neg' 2 rfl (by norm_num) (by norm_num)
  have hD' : D'.Rp 8 _ := (hD.add hB' (by norm_num)).mulInt 2 (by norm_num) (by norm_num)
  have hE : Ee.Rp 3 _ := hA.mulInt 3 (by norm_num) (by norm_num)
  have hF : F.Rp 1 _ := hE.square (by norm_num)
  have hX3 : X3.Rp 17 _ := (hD'.mulInt 2 (by norm_num) (by norm_num)).neg' 16 rfl (by norm_num) (by norm_num)
  have hX3' : X3'.Rp 18 _ := hX3.add hF (by norm_num)
  have hF' : F'.Rp 1 _ := (((hX3'.neg' 18 rfl (by norm_num) (by norm_num)).add hD' (by norm_num)).norm (by norm_num)).1
  have hY3 : Y3.Rp 9 _ := (hC.mulInt 8 (by norm_num) (by norm_num)).neg' 8 rfl (by norm_num) (by norm_num)
  have hY3' : Y3'.Rp 10 _ := hY3.add (hF'.mul hE (by norm_num) (by norm_num)) (by norm_num)
  refine ⟨_, FV.Rp.mono (?_ : FV.Rp 1 _ 0) (by norm_num), FV.Rp.mono (?_ : FV.Rp 1 _ 0) (by norm_num), ((hz3.norm (by norm_num)).1).mono (by norm_num)⟩
  · convert (hX3'.norm (by norm_num)).1 using 1; simp
  · convert (hY3'.norm (by norm_num)).1 using 1; simp

theorem doubleGeneric_null {x1 y1 z1 : FV} {c : ZMod p} (hx : x1.Rp 2 0) (hy : y1.Rp 2 0) (hz : z1.Rp 2 c) :
    (doubleGeneric x1 y1 z1).Null := by
  unfold doubleGeneric
  extract_lets z3 A B C B' D D' Ee F X3 X3' F' Y3 Y3'
  have hz3 : z3.Rp 2 _ := (hy.mul hz (by norm_num) (by norm_num)).mulInt 2 (by norm_num) (by norm_num)
  have hA : A.Rp 1 _ := hx.square (by norm_num)
  have hB : B.Rp 1 _ := hy.square (by norm_num)
  have hC : C.Rp 1 _ := hB.square (by norm_num)
  have hB' : B'.Rp 1 _ := (hB.add hx (by norm_num)).square (by norm_num)
  have hD : D.Rp 3 _ := (hA.add hC (by norm_num)).neg' 2 rfl (by norm_num) (by norm_num)
  have hD' : D'.Rp 8 _ := (hD.add hB' (by norm_num)).mulInt 2 (by norm_num) (by norm_num)
  have hE : Ee.Rp 3 _ := hA.mulInt 3 (by norm_num) (by norm_num)
  have hF : F.Rp 1 _ := hE.square (by norm_num)
  have hX3 : X3.Rp 17 _ := (hD'.mulInt 2 (by norm_num) (by norm_num)).neg' 16 rfl (by norm_num) (by norm_num)
  have hX3' : X3'.Rp 18 _ := hX3.add hF (by norm_num)
  have hF' : F'.Rp 1 _ := (((hX3'.neg' 18 rfl (by norm_num) (by norm_num)).add hD' (by norm_num)).norm (by norm_num)).1
  have hY3 : Y3.Rp 9 _ := (hC.mulInt 8 (by norm_num) (by norm_num)).neg' 8 rfl (by norm_num) (by norm_num)
  have hY3' : Y3'.Rp 10 _ := hY3.add (hF'.mul hE (by norm_num) (by norm_num)) (by norm_num)
  refine ⟨_, FV.Rp.mono (?_ : FV.Rp 1 _ 0) (by norm_num), FV.Rp.mono (?_ : FV.Rp 1 _ 0) (by norm_num), ((hz3.norm (by norm_num)).1).mono (by norm_num)⟩
  · convert (hX3'.norm (by norm_num)).1 using 1; simp
  · convert (hY3'.norm (by norm_num)).1 using 1; simp

theorem doubleJacobian_null {q : Jac} (h : q.Null) : (doubleJacobian q).Null := by
  obtain ⟨vz, hx, hy, hz⟩ := h
  unfold doubleJacobian
  by_cases h0 : (q.y.isZero || q.z.isZero) = true
  · rw [if_pos h0]; exact inf_null
  rw [if_neg h0]
  simp only
  obtain ⟨rz, nz⟩ := hz.norm (by norm_num)
  by_cases e : q.z.normalize.equals fieldOne = true
  · rw [if_pos e]; exact doubleZ1_null hx hy
  · rw [if_neg e]; exact doubleGeneric_null hx hy (rz.mono (by norm_num))

theorem addJacobian_null {q r : Jac} (h1 : q.Null) (h2 : r.Null) : (addJacobian q r).Null := by
  have h1' := h1
  have h2' := h2
  obtain ⟨e, hx1, hy1, hz1⟩ := h1'
  obtain ⟨f, hx2, hy2, hz2⟩ := h2'
  obtain ⟨rz1, nz1⟩ := hz1.norm (by norm_num)
  obtain ⟨rz2, nz2⟩ := hz2.norm (by norm_num)
  obtain ⟨rx1, nx1⟩ := hx1.norm (by norm_num)
  obtain ⟨ry1, ny1⟩ := hy1.norm (by norm_num)
  obtain ⟨rx2, nx2⟩ := hx2.norm (by norm_num)
  obtain ⟨ry2, ny2⟩ := hy2.norm (by norm_num)
  unfold addJacobian
  by_cases c1 : ((q.x.isZero && q.y.isZero) || q.z.isZero) = true
  · rw [if_pos c1]; exact h2
  rw [if_neg c1]
  by_cases c2 : ((r.x.isZero && r.y.isZero) || r.z.isZero) = true
  · rw [if_pos c2]; exact h1
  rw [if_neg c2]
  simp only
  have nn : (doubleJacobian ⟨q.x.normalize, q.y.normalize, q.z.normalize⟩).Null :=
    doubleJacobian_null ⟨e, rx1.mono (by norm_num), ry1.mono (by norm_num), rz1.mono (by norm_num)⟩
  split
  · unfold addZ1AndZ2EqualsOne
    simp only
    rw [if_pos ((nx1.equals nx2 rx1 rx2).2 rfl), if_pos ((ny1.equals ny2 ry1 ry2).2 rfl)]
    exact nn
  split
  · unfold addZ1EqualsZ2
    simp only
    rw [if_pos ((nx1.equals nx2 rx1 rx2).2 rfl), if_pos ((ny1.equals ny2 ry1 ry2).2 rfl)]
    exact nn
  have hzz : q.z.normalize.square.Rp 1 _ := rz1.square (by norm_num)
  have hzz2 : r.z.normalize.square.Rp 1 _ := rz2.square (by norm_num)
  obtain ⟨ru2, nu2⟩ := (hx2.mul hzz (by norm_num) (by norm_num)).norm (by norm_num)
  obtain ⟨rs2, ns2⟩ := ((hy2.mul hzz (by norm_num) (by norm_num)).mul rz1 (by norm_num) (by norm_num)).norm (by norm_num)
  obtain ⟨ru1, nu1⟩ := (hx1.mul hzz2 (by norm_num) (by norm_num)).norm (by norm_num)
  obtain ⟨rs1, ns1⟩ := ((hy1.mul hzz2 (by norm_num) (by norm_num)).mul rz2 (by norm_num) (by norm_num)).norm (by norm_num)
  split
  · unfold addZ2EqualsOne
    simp only
    rw [if_pos ((nx1.equals nu2 rx1 ru2).2 (by simp)), if_pos ((ny1.equals ns2 ry1 rs2).2 (by simp))]
    exact nn
  · unfold addGeneric
    simp only
    rw [if_pos ((nu1.equals nu2 ru1 ru2).2 (by simp)), if_pos ((ns1.equals ns2 rs1 rs2).2 (by simp))]
    exact doubleJacobian_null ⟨e, hx1, hy1, rz1.mono (by norm_num)⟩

theorem smByte_null {p1 p1n p2 p2n : Jac} (h1 : p1.Null) (h1n : p1n.Null) (h2 : p2.Null) (h2n : p2n.Null) :
    ∀ (j : Nat) (q : Jac) (a b c d : UInt8), q.Null → (smByte p1 p1n p2 p2n j q a b c d).Null
  | 0, q, _, _, _, _, h => h
  | j + 1, q, a, b, c, d, h => by
    unfold smByte
    simp only
    apply smByte_null h1 h1n h2 h2n j
    have step : ∀ {q p pn : Jac} {a b : UInt8}, q.Null → p.Null → pn.Null →
        (if a &&& 0x80 == 0x80 then addJacobian q p else if b &&& 0x80 == 0x80 then addJacobian q pn else q).Null := by
      intro q p pn a b hq hp hn
      split
      · exact addJacobian_null hq hp
      · split
        · exact addJacobian_null hq hn
        · exact hq
    exact step (step (doubleJacobian_null h) h1 h1n) h2 h2n

theorem smLoop_null {p1 p1n p2 p2n : Jac} (h1 : p1.Null) (h1n : p1n.Null) (h2 : p2.Null) (h2n : p2n.Null) :
    ∀ (as bs cs ds : Bytes) (q : Jac), q.Null → (smLoop p1 p1n p2 p2n q as bs cs ds).Null
  | a :: as, b :: bs, c :: cs, d :: ds, q, h => by
    unfold smLoop
    exact smLoop_null h1 h1n h2 h2n as bs cs ds _ (smByte_null h1 h1n h2 h2n 8 q a b c d h)
  | [], _, _, _, q, h => by unfold smLoop; exact h
  | _ :: _, [], _, _, q, h => by unfold smLoop; exact h
  | _ :: _, _ :: _, [], _, q, h => by unfold smLoop; exact h
  | _ :: _, _ :: _, _ :: _, [], q, h => by unfold smLoop; exact h

theorem toAffine_null {q : Jac} (h : q.Null) : q.toAffine = (0, 0) := by
  obtain ⟨c, hx, hy, hz⟩ := h
  unfold Jac.toAffine
  simp only
  have hi := hz.inverse (by norm_num)
  have ht := hi.square (by norm_num)
  obtain ⟨r1, n1⟩ := (hx.mul ht (by norm_num) (by norm_num)).norm (by norm_num)
  obtain ⟨r2, n2⟩ := (hy.mul (ht.mul hi (by norm_num) (by norm_num)) (by norm_num) (by norm_num)).norm (by norm_num)
  rw [n1.bytes r1, n2.bytes r2]
  simp

theorem smSplit_null (k1 k2 : Int) : smSplit 0 0 k1 k2 = (0, 0) := by
  have z : res 0 = 0 := by
    have : beNat ((intBytes 0).take 32) = 0 := by decide
    unfold res; rw [this, Nat.cast_zero]
  have hx := toField_rp 0
  rw [z] at hx
  have hny : ((toField 0).negate 1).Rp 2 0 := by
    have := hx.neg' (K := 1) 1 rfl (by norm_num) (by norm_num)
    rwa [neg_zero] at this
  have hbx : ((toField 0).mul beta).Rp 1 0 := by
    have := hx.mul beta_rp (by norm_num) (by norm_num)
    rwa [zero_mul] at this
  have mk : ∀ {x y yn : FV} (k : Int), x.Rp 1 0 → y.Rp 1 0 → yn.Rp 2 0 →
      (⟨x, if k < 0 then yn else y, FV.setInt 1⟩ : Jac).Null ∧ (⟨x, if k < 0 then y else yn, FV.setInt 1⟩ : Jac).Null := by
    intro x y yn k hx hy hn
    split
    · exact ⟨⟨_, hx.mono (by norm_num), hn, one_rp⟩, ⟨_, hx.mono (by norm_num), hy.mono (by norm_num), one_rp⟩⟩
    · exact ⟨⟨_, hx.mono (by norm_num), hy.mono (by norm_num), one_rp⟩, ⟨_, hx.mono (by norm_num), hn, one_rp⟩⟩
  obtain ⟨a1, a2⟩ := mk k1 hx hx hny
  obtain ⟨b1, b2⟩ := mk k2 hbx hx hny
  unfold smSplit
  exact toAffine_null (smLoop_null a1 a2 b1 b2 _ _ _ _ _ inf_null)

theorem scalarMult_zero (k : Bytes) : scalarMult 0 0 k = (0, 0) := smSplit_null _ _

end Tss.Secp
