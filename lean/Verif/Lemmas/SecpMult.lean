import Verif.Lemmas.SecpJac
import Verif.Lemmas.SecpOrder
import Mathlib.Tactic.Abel
import Mathlib.Tactic.Module
/-
NAF recoding, the endomorphism split and ScalarMult of btcec against multiplication in the group of points.
-/
namespace Tss.Secp
open Tss

theorem u8_all {q : UInt8 → Prop} (h : ∀ n : Fin 256, q (UInt8.ofNat n)) (b : UInt8) : q b := by
  have := h ⟨b.toNat, UInt8.toNat_lt b⟩
  rwa [UInt8.ofNat_toNat] at this

/-! ### NAF -/

/-- No position has a digit in both. -/
def Disj (a b : UInt8) : Prop := a.toNat &&& b.toNat = 0

instance (a b : UInt8) : Decidable (Disj a b) := inferInstanceAs (Decidable (_ = _))

theorem nafByte_spec (carry : Bool) (b : UInt8) (next : Bool) :
    b.toNat + carry.toNat + (nafByte carry b next).2.2.toNat =
      (nafByte carry b next).2.1.toNat + 256 * (nafByte carry b next).1.toNat ∧
    Disj (nafByte carry b next).2.1 (nafByte carry b next).2.2 := by
  revert carry next
  revert b
  apply u8_all
  decide +kernel

theorem nafLoop_cons (carry : Bool) (b : UInt8) (rest : Bytes) : ∃ nx : Bool, nafLoop carry (b :: rest) =
    ((nafLoop (nafByte carry b nx).1 rest).1, (nafByte carry b nx).2.1 :: (nafLoop (nafByte carry b nx).1 rest).2.1,
      (nafByte carry b nx).2.2 :: (nafLoop (nafByte carry b nx).1 rest).2.2) := by
  refine ⟨lowBit rest, ?_⟩
  rw [nafLoop]
  generalize nafByte carry b (lowBit rest) = r
  rfl

theorem nafLoop_spec (k : Bytes) : ∀ carry : Bool,
    leNat k + carry.toNat + leNat (nafLoop carry k).2.2 = leNat (nafLoop carry k).2.1 + 256 ^ k.length * (nafLoop carry k).1.toNat ∧
    (nafLoop carry k).2.1.length = k.length ∧ (nafLoop carry k).2.2.length = k.length ∧
    List.Forall₂ Disj (nafLoop carry k).2.1 (nafLoop carry k).2.2 := by
  induction k with
  | nil =>
    intro carry
    have e : nafLoop carry [] = (carry, [], []) := rfl
    rw [e]
    refine ⟨?_, rfl, rfl, List.Forall₂.nil⟩
    simp only [List.length_nil, pow_zero, one_mul, leNat]; omega
  | cons b rest ih =>
    intro carry
    obtain ⟨nx, hnx⟩ := nafLoop_cons carry b rest
    rw [hnx]
    obtain ⟨h1, h2⟩ := nafByte_spec carry b nx
    generalize nafByte carry b nx = r at *
    obtain ⟨i1, i2, i3, i4⟩ := ih r.1
    generalize nafLoop r.1 rest = t at *
    refine ⟨?_, by simp [i2], by simp [i3], List.Forall₂.cons h2 i4⟩
    simp only [leNat, List.length_cons, pow_succ]
    have : 256 ^ rest.length * 256 * t.1.toNat = 256 * (256 ^ rest.length * t.1.toNat) := by ring
    rw [this]
    omega

theorem NAF_spec (k : Bytes) : (beNat (NAF k).1 : Int) - beNat (NAF k).2 = beNat k ∧ (NAF k).1.length = (NAF k).2.length ∧
    List.Forall₂ Disj (NAF k).1 (NAF k).2 := by
  obtain ⟨h1, h2, h3, h4⟩ := nafLoop_spec k.reverse false
  rw [leNat_reverse] at h1
  have h5 : List.Forall₂ Disj (nafLoop false k.reverse).2.1.reverse (nafLoop false k.reverse).2.2.reverse :=
    List.rel_reverse h4
  unfold NAF
  simp only
  generalize nafLoop false k.reverse = t at *
  simp only [Bool.toNat_false, add_zero, List.length_reverse] at h1 h2 h3
  cases hc : t.1
  · rw [hc] at h1
    simp only [Bool.toNat_false, mul_zero, add_zero] at h1
    refine ⟨?_, ?_, ?_⟩
    · simp [beNat_reverse]; omega
    · simp [h2, h3]
    · simpa using h5
  · rw [hc] at h1
    simp only [Bool.toNat_true, mul_one] at h1
    refine ⟨?_, ?_, ?_⟩
    · simp only [if_true, beNat_cons, beNat_reverse, List.length_reverse, h2]
      simp
      have this := congrArg (Nat.cast : Nat → Int) h1
      push_cast at this
      linarith
    · simp [h2, h3]
    · exact List.Forall₂.cons (by decide) h5

/-! ### The main loop -/

/-- The top bit. -/
def msb (a : UInt8) : Nat := if a &&& 0x80 == 0x80 then 1 else 0

theorem msb_step (a : UInt8) : ∀ j < 8, a.toNat / 2 ^ (7 - j) = msb a * 2 ^ j + (a <<< 1).toNat / 2 ^ (8 - j) := by
  revert a
  apply u8_all
  decide +kernel

theorem disj_shl {a b : UInt8} (h : Disj a b) : Disj (a <<< 1) (b <<< 1) := by
  have e : ∀ a : UInt8, (a <<< 1).toNat = (a.toNat <<< 1) % 2 ^ 8 := fun a => by
    rw [UInt8.toNat_shiftLeft]; rfl
  unfold Disj at *
  rw [e, e, ← Nat.and_mod_two_pow, ← Nat.shiftLeft_and_distrib, h]
  rfl

theorem disj_msb {a b : UInt8} (h : Disj a b) (ha : (a &&& 0x80 == 0x80) = true) : (b &&& 0x80 == 0x80) = false := by
  have e : ∀ a : UInt8, (a &&& 0x80 == 0x80) = a.toNat.testBit 7 := by
    intro a
    refine u8_all (q := fun a => (a &&& 0x80 == 0x80) = a.toNat.testBit 7) ?_ a
    decide +kernel
  rw [e] at *
  unfold Disj at h
  have := congrArg (Nat.testBit · 7) h
  simp only [Nat.testBit_and, ha, Nat.zero_testBit, Bool.true_and] at this
  exact this

theorem digit_rep {q p pn : Jac} {Q P : E.Point} {a b : UInt8} (hq : q.Rep Q) (hp : p.Rep P) (hn : pn.Rep (-P)) (hd : Disj a b) :
    (if a &&& 0x80 == 0x80 then addJacobian q p else if b &&& 0x80 == 0x80 then addJacobian q pn else q).Rep
      (Q + ((msb a : Int) - msb b) • P) := by
  by_cases ha : (a &&& 0x80 == 0x80) = true
  · have hb := disj_msb hd ha
    unfold msb
    rw [if_pos ha, if_pos ha, hb, if_neg (by simp)]
    simpa using addJacobian_rep hq hp
  · rw [if_neg ha]
    by_cases hb : (b &&& 0x80 == 0x80) = true
    · unfold msb
      rw [if_pos hb, if_neg ha, if_pos hb]
      have := addJacobian_rep hq hn
      simpa using this
    · unfold msb
      rw [if_neg hb, if_neg ha, if_neg hb]
      simpa using hq

theorem smByte_rep {p1 p1n p2 p2n : Jac} {P1 P2 : E.Point} (h1 : p1.Rep P1) (h1n : p1n.Rep (-P1)) (h2 : p2.Rep P2)
    (h2n : p2n.Rep (-P2)) : ∀ (j : Nat) (q : Jac) (Q : E.Point) (a b c d : UInt8), j ≤ 8 → q.Rep Q → Disj a b → Disj c d →
    (smByte p1 p1n p2 p2n j q a b c d).Rep
      ((2 ^ j : Int) • Q + (((a.toNat / 2 ^ (8 - j) : Nat) : Int) - (b.toNat / 2 ^ (8 - j) : Nat)) • P1 +
        (((c.toNat / 2 ^ (8 - j) : Nat) : Int) - (d.toNat / 2 ^ (8 - j) : Nat)) • P2)
  | 0, q, Q, a, b, c, d, _, hq, _, _ => by
    have z : ∀ a : UInt8, a.toNat / 2 ^ (8 - 0) = 0 := fun a => Nat.div_eq_of_lt (UInt8.toNat_lt a)
    rw [z, z, z, z]
    simpa [smByte] using hq
  | j + 1, q, Q, a, b, c, d, hj, hq, hab, hcd => by
    unfold smByte
    simp only
    have hq2 := digit_rep (digit_rep (doubleJacobian_rep hq) h1 h1n hab) h2 h2n hcd
    have := smByte_rep h1 h1n h2 h2n j _ _ (a <<< 1) (b <<< 1) (c <<< 1) (d <<< 1) (by omega) hq2 (disj_shl hab) (disj_shl hcd)
    have ej : 8 - (j + 1) = 7 - j := by omega
    rw [ej, msb_step a j (by omega), msb_step b j (by omega), msb_step c j (by omega), msb_step d j (by omega)]
    push_cast
    convert this using 1
    push_cast
    rw [pow_succ]
    module

theorem smLoop_rep {p1 p1n p2 p2n : Jac} {P1 P2 : E.Point} (h1 : p1.Rep P1) (h1n : p1n.Rep (-P1)) (h2 : p2.Rep P2)
    (h2n : p2n.Rep (-P2)) : ∀ (as bs cs ds : Bytes) (q : Jac) (Q : E.Point), q.Rep Q → List.Forall₂ Disj as bs →
    List.Forall₂ Disj cs ds → as.length = cs.length →
    (smLoop p1 p1n p2 p2n q as bs cs ds).Rep
      ((256 ^ as.length : Int) • Q + ((beNat as : Int) - beNat bs) • P1 + ((beNat cs : Int) - beNat ds) • P2)
  | [], bs, cs, ds, q, Q, hq, h, h', hl => by
    cases h
    have : cs = [] := List.length_eq_zero_iff.1 hl.symm
    subst this
    cases h'
    simpa [smLoop, beNat] using hq
  | a :: as, bs, cs, ds, q, Q, hq, h, h', hl => by
    cases h with
    | cons hab h =>
    cases h' with
    | nil => cases hl
    | cons hcd h' =>
    rename_i b bs c d cs ds
    unfold smLoop
    have hl' : as.length = cs.length := by simpa using hl
    have hb : bs.length = as.length := h.length_eq.symm
    have hdl : ds.length = as.length := h'.length_eq.symm.trans hl'.symm
    have e := smByte_rep h1 h1n h2 h2n 8 q Q a b c d (by omega) hq hab hcd
    simp only [Nat.sub_self, pow_zero, Nat.div_one] at e
    have := smLoop_rep h1 h1n h2 h2n as bs cs ds _ _ e h h' hl'
    simp only [beNat_cons, hb, hdl, ← hl', List.length_cons]
    push_cast
    convert this using 1
    rw [pow_succ]
    module

/-! ### ScalarMult -/

theorem ord_N : N = (ord : Int) := by decide +kernel

theorem split_id (k : Bytes) : (ord : Int) ∣ (splitK k).1 + (splitK k).2 * lam - beNat k := by
  unfold splitK
  simp only
  have d1 : (ord : Int) ∣ a1 + b1 * lam := by decide +kernel
  have d2 : (ord : Int) ∣ a2 + b2 * lam := by decide +kernel
  obtain ⟨u, hu⟩ := d1
  obtain ⟨v, hv⟩ := d2
  generalize b2 * (beNat k : Int) / N = c1
  generalize b1 * (beNat k : Int) / N = c2
  refine ⟨-c1 * u + c2 * v, ?_⟩
  linear_combination (-c1) * hu + c2 * hv

theorem moduloReduce_spec (k : Bytes) : (ord : Int) ∣ (beNat (moduloReduce k) : Int) - beNat k ∧ (moduloReduce k).length ≤ 32 := by
  unfold moduloReduce
  split
  · have hN : (0 : Int) < N := by decide
    have h0 := Int.emod_nonneg (beNat k : Int) hN.ne'
    have hlt := Int.emod_lt_of_pos (beNat k : Int) hN
    constructor
    · rw [beNat_intBytes, Int.natAbs_of_nonneg h0, ord_N]
      exact ⟨-((beNat k : Int) / ord), by linarith [Int.emod_add_mul_ediv (beNat k : Int) ord]⟩
    · unfold intBytes
      apply natBE_length_le
      have : N < 256 ^ 32 := by decide
      omega
  · exact ⟨by simp, by omega⟩

/-- The group element of an affine point on the curve; infinity for anything else. -/
noncomputable def toG (x y : Int) : E.Point := if h : res y ^ 2 = res x ^ 3 + 7 then pt (res x) (res y) h else 0

theorem toG_on {x y : Int} (h : isOnCurve x y = true) : ∃ h', toG x y = pt (res x) (res y) h' := by
  have h' := (isOnCurve_iff x y).1 h
  exact ⟨h', dif_pos h'⟩

theorem beta_rp : beta.Rp 1 ((betaN : Nat) : ZMod p) := by
  unfold beta
  have := FV.Rp.setByteSlice (b := [
    0x7A, 0xE9, 0x6A, 0x2B, 0x65, 0x7C, 0x07, 0x10, 0x6E, 0x64, 0x47, 0x9E, 0xAC, 0x34, 0x34, 0xE9,
    0x9C, 0xF0, 0x49, 0x75, 0x12, 0xF5, 0x89, 0x95, 0xC1, 0x39, 0x6C, 0x28, 0x71, 0x95, 0x01, 0xEE]) (by decide)
  have e : beNat [
    0x7A, 0xE9, 0x6A, 0x2B, 0x65, 0x7C, 0x07, 0x10, 0x6E, 0x64, 0x47, 0x9E, 0xAC, 0x34, 0x34, 0xE9,
    0x9C, 0xF0, 0x49, 0x75, 0x12, 0xF5, 0x89, 0x95, 0xC1, 0x39, 0x6C, 0x28, 0x71, 0x95, 0x01, 0xEE] = betaN := by decide +kernel
  rw [e] at this
  exact this

theorem one_rp : (FV.setInt 1).Rp 2 1 := by
  have := FV.Rp.setInt (c := 1) (by norm_num)
  simpa using this.mono (by norm_num)

theorem affine_rep {x y : FV} {a b : ZMod p} (hx : x.Rp 2 a) (hy : y.Rp 2 b) (h : b ^ 2 = a ^ 3 + 7) :
    (⟨x, y, FV.setInt 1⟩ : Jac).Rep (pt a b h) :=
  ⟨a, b, 1, hx, hy, one_rp, Or.inr ⟨one_ne_zero, a, b, h, by ring, by ring, rfl⟩⟩

theorem padFront_disj {m : Nat} {a b : Bytes} (h : List.Forall₂ Disj a b) : List.Forall₂ Disj (padFront m a) (padFront m b) := by
  unfold padFront
  rw [h.length_eq]
  refine List.rel_append (R := Disj) ?_ h
  generalize m - b.length = n
  induction n with
  | zero => exact List.Forall₂.nil
  | succ n ih => exact List.Forall₂.cons (by decide) ih

theorem padFront_length {m : Nat} {a : Bytes} (h : a.length ≤ m) : (padFront m a).length = m := by
  unfold padFront
  rw [List.length_append, List.length_replicate]; omega

theorem padFront_nat (m : Nat) (a : Bytes) : beNat (padFront m a) = beNat a := beNat_zeros_append _ _

theorem sign_smul (k : Int) (P : E.Point) : (k.natAbs : Int) • (if k < 0 then -P else P) = k • P := by
  split
  · rename_i h
    have : ((k.natAbs : Nat) : Int) = -k := by omega
    rw [this]; simp
  · rename_i h
    have : ((k.natAbs : Nat) : Int) = k := by omega
    rw [this]

theorem signed_rep {x y yn : FV} {a b : ZMod p} (hx : x.Rp 2 a) (hy : y.Rp 2 b) (hny : yn.Rp 2 (-b)) (h : b ^ 2 = a ^ 3 + 7)
    {P : E.Point} (hP : pt a b h = P) (k : Int) :
    (⟨x, if k < 0 then yn else y, FV.setInt 1⟩ : Jac).Rep (if k < 0 then -P else P) ∧
    (⟨x, if k < 0 then y else yn, FV.setInt 1⟩ : Jac).Rep (-(if k < 0 then -P else P)) := by
  subst hP
  by_cases hk : k < 0
  · rw [if_pos hk, if_pos hk, if_pos hk, neg_neg, pt_neg]
    exact ⟨affine_rep hx hny _, affine_rep hx hy _⟩
  · rw [if_neg hk, if_neg hk, if_neg hk, pt_neg]
    exact ⟨affine_rep hx hy _, affine_rep hx hny _⟩

theorem lam_pt {x y : ZMod p} (h : y ^ 2 = x ^ 3 + 7) (h' : y ^ 2 = (x * (betaN : Nat)) ^ 3 + 7) :
    pt (x * (betaN : Nat)) y h' = (lam : Int) • pt x y h := by
  rw [natCast_zsmul, ← phi_eq, phi_pt]
  exact pt_congr (mul_comm _ _) rfl

/-- The result of ScalarMult once the scalar is split. -/
theorem smSplit_spec {x y : Int} (h : res y ^ 2 = res x ^ 3 + 7) (k1 k2 : Int) :
    smSplit x y k1 k2 = coords ((k1 + k2 * lam) • pt (res x) (res y) h) := by
  have hx := toField_rp x
  have hy := toField_rp y
  have hny : ((toField y).negate 1).Rp 2 (-res y) := hy.neg' 1 rfl (by norm_num) (by norm_num)
  have hbx : ((toField x).mul beta).Rp 1 (res x * (betaN : Nat)) := hx.mul beta_rp (by norm_num) (by norm_num)
  have h' : res y ^ 2 = (res x * (betaN : Nat)) ^ 3 + 7 := by rw [mul_comm]; exact phi_on h
  obtain ⟨r1, r1n⟩ := signed_rep (hx.mono (by norm_num)) (hy.mono (by norm_num)) hny h rfl k1
  obtain ⟨r2, r2n⟩ := signed_rep (hbx.mono (by norm_num)) (hy.mono (by norm_num)) hny h' (lam_pt h h') k2
  obtain ⟨n1, l1, f1⟩ := NAF_spec (intBytes k1)
  obtain ⟨n2, l2, f2⟩ := NAF_spec (intBytes k2)
  rw [beNat_intBytes] at n1 n2
  unfold smSplit
  simp only
  generalize NAF (intBytes k1) = N1 at *
  generalize NAF (intBytes k2) = N2 at *
  have key := smLoop_rep r1 r1n r2 r2n (padFront (max N1.1.length N2.1.length) N1.1) (padFront (max N1.1.length N2.1.length) N1.2)
    (padFront (max N1.1.length N2.1.length) N2.1) (padFront (max N1.1.length N2.1.length) N2.2) Jac.inf 0 inf_rep
    (padFront_disj f1) (padFront_disj f2)
    (by rw [padFront_length (le_max_left _ _), padFront_length (le_max_right _ _)])
  rw [toAffine_rep key]
  simp only [padFront_nat, n1, n2, sign_smul]
  rw [zsmul_zero, zero_add, smul_smul, ← add_zsmul]

theorem coords_mod (P : E.Point) {a b : Int} (h : (ord : Int) ∣ a - b) : coords (a • P) = coords (b • P) := by
  rw [zsmul_mod P h]

/-- ScalarMult multiplies. -/
theorem scalarMult_spec {x y : Int} (h : isOnCurve x y = true) (k : Bytes) : scalarMult x y k = coords (beNat k • toG x y) := by
  obtain ⟨hc, hP⟩ := toG_on h
  have s := dvd_add (split_id (moduloReduce k)) (moduloReduce_spec k).1
  rw [sub_add_sub_cancel] at s
  rw [hP, ← natCast_zsmul, ← coords_mod _ s]
  exact smSplit_spec hc _ _

end Tss.Secp
