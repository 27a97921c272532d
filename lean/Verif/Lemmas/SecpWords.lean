import Verif.Model.SecpField
import Verif.Lemmas.Go
import Mathlib.Tactic.LinearCombination
import Mathlib.Data.ZMod.Basic
/-
Words, values and the carry passes of btcec's field arithmetic.
-/
namespace Tss.Secp
open Tss

/-! ### Words -/

theorem u32_shr26 (x : UInt32) : (x >>> 26).toNat = x.toNat / 2 ^ 26 := by
  rw [UInt32.toNat_shiftRight, Nat.shiftRight_eq_div_pow]; rfl

theorem u32_shr22 (x : UInt32) : (x >>> 22).toNat = x.toNat / 2 ^ 22 := by
  rw [UInt32.toNat_shiftRight, Nat.shiftRight_eq_div_pow]; rfl

theorem u32_shl6 (x : UInt32) : (x <<< 6).toNat = x.toNat * 64 % 2 ^ 32 := by
  rw [UInt32.toNat_shiftLeft, Nat.shiftLeft_eq]; rfl

theorem u32_mask26 (x : UInt32) : (x &&& 0x3ffffff).toNat = x.toNat % 2 ^ 26 := by
  rw [UInt32.toNat_and]; exact Nat.and_two_pow_sub_one_eq_mod x.toNat 26

theorem u32_mask22 (x : UInt32) : (x &&& 0x3fffff).toNat = x.toNat % 2 ^ 22 := by
  rw [UInt32.toNat_and]; exact Nat.and_two_pow_sub_one_eq_mod x.toNat 22

theorem u64_shr26 (x : UInt64) : (x >>> 26).toNat = x.toNat / 2 ^ 26 := by
  rw [UInt64.toNat_shiftRight, Nat.shiftRight_eq_div_pow]; rfl

theorem u64_shr22 (x : UInt64) : (x >>> 22).toNat = x.toNat / 2 ^ 22 := by
  rw [UInt64.toNat_shiftRight, Nat.shiftRight_eq_div_pow]; rfl

theorem u64_mask26 (x : UInt64) : (x &&& 0x3ffffff).toNat = x.toNat % 2 ^ 26 := by
  rw [UInt64.toNat_and]; exact Nat.and_two_pow_sub_one_eq_mod x.toNat 26

theorem u64_mask22 (x : UInt64) : (x &&& 0x3fffff).toNat = x.toNat % 2 ^ 22 := by
  rw [UInt64.toNat_and]; exact Nat.and_two_pow_sub_one_eq_mod x.toNat 22

theorem u64_mul32 (a b : UInt32) : (a.toUInt64 * b.toUInt64).toNat = a.toNat * b.toNat := by
  rw [UInt64.toNat_mul, UInt32.toNat_toUInt64, UInt32.toNat_toUInt64]
  apply Nat.mod_eq_of_lt
  have := a.toNat_lt; have := b.toNat_lt
  calc a.toNat * b.toNat < 2 ^ 32 * 2 ^ 32 := Nat.mul_lt_mul'' ‹_› ‹_›
    _ = 2 ^ 64 := by norm_num

theorem u64_to32 (x : UInt64) : x.toUInt32.toNat = x.toNat % 2 ^ 32 := UInt64.toNat_toUInt32 x

/-! ### Values -/

/-- The number the ten words stand for. -/
def FV.val (f : FV) : Nat :=
  f.n0.toNat + f.n1.toNat * 2 ^ 26 + f.n2.toNat * 2 ^ 52 + f.n3.toNat * 2 ^ 78 + f.n4.toNat * 2 ^ 104 +
    f.n5.toNat * 2 ^ 130 + f.n6.toNat * 2 ^ 156 + f.n7.toNat * 2 ^ 182 + f.n8.toNat * 2 ^ 208 + f.n9.toNat * 2 ^ 234

/-- The prime. -/
def p : Nat := 2 ^ 256 - 2 ^ 32 - 977

/-- Magnitude at most m: the words are at most m times (a little more than) 26 bits, the top word m times 22 bits. -/
structure FV.Mag (m : Nat) (f : FV) : Prop where
  h0 : f.n0.toNat ≤ m * (2 ^ 26 + 2 ^ 19)
  h1 : f.n1.toNat ≤ m * (2 ^ 26 + 2 ^ 19)
  h2 : f.n2.toNat ≤ m * (2 ^ 26 + 2 ^ 19)
  h3 : f.n3.toNat ≤ m * (2 ^ 26 + 2 ^ 19)
  h4 : f.n4.toNat ≤ m * (2 ^ 26 + 2 ^ 19)
  h5 : f.n5.toNat ≤ m * (2 ^ 26 + 2 ^ 19)
  h6 : f.n6.toNat ≤ m * (2 ^ 26 + 2 ^ 19)
  h7 : f.n7.toNat ≤ m * (2 ^ 26 + 2 ^ 19)
  h8 : f.n8.toNat ≤ m * (2 ^ 26 + 2 ^ 19)
  h9 : f.n9.toNat ≤ m * 2 ^ 22

/-- Every word is within its 26 (22) bits. -/
structure FV.Tight (f : FV) : Prop where
  h0 : f.n0.toNat < 2 ^ 26
  h1 : f.n1.toNat < 2 ^ 26
  h2 : f.n2.toNat < 2 ^ 26
  h3 : f.n3.toNat < 2 ^ 26
  h4 : f.n4.toNat < 2 ^ 26
  h5 : f.n5.toNat < 2 ^ 26
  h6 : f.n6.toNat < 2 ^ 26
  h7 : f.n7.toNat < 2 ^ 26
  h8 : f.n8.toNat < 2 ^ 26
  h9 : f.n9.toNat < 2 ^ 22

theorem FV.Tight.mag {f : FV} (h : f.Tight) : f.Mag 1 := by
  obtain ⟨h0, h1, h2, h3, h4, h5, h6, h7, h8, h9⟩ := h
  constructor <;> omega

theorem FV.Tight.lt {f : FV} (h : f.Tight) : f.val < 2 ^ 256 := by
  obtain ⟨h0, h1, h2, h3, h4, h5, h6, h7, h8, h9⟩ := h
  unfold FV.val
  omega

theorem FV.Mag.mono {m k : Nat} {f : FV} (h : f.Mag m) (hk : m ≤ k) : f.Mag k := by
  obtain ⟨h0, h1, h2, h3, h4, h5, h6, h7, h8, h9⟩ := h
  constructor <;> nlinarith

/-- The words of a tight value are its digits: equal values are equal. -/
theorem FV.Tight.ext {f g : FV} (hf : f.Tight) (hg : g.Tight) (h : f.val = g.val) : f = g := by
  obtain ⟨h0, h1, h2, h3, h4, h5, h6, h7, h8, h9⟩ := hf
  obtain ⟨k0, k1, k2, k3, k4, k5, k6, k7, k8, k9⟩ := hg
  unfold FV.val at h
  cases f; cases g
  simp only [FV.mk.injEq, ← UInt32.toNat_inj] at *
  omega

/-! ### Normalize -/

theorem carryPass_spec (m : UInt32) (f : FV) (hm : m.toNat ≤ 1023)
    (h0 : f.n0.toNat ≤ 2 ^ 32 - 2 ^ 22) (h1 : f.n1.toNat ≤ 2 ^ 32 - 2 ^ 22) (h2 : f.n2.toNat ≤ 2 ^ 32 - 2 ^ 22)
    (h3 : f.n3.toNat ≤ 2 ^ 32 - 2 ^ 22) (h4 : f.n4.toNat ≤ 2 ^ 32 - 2 ^ 22) (h5 : f.n5.toNat ≤ 2 ^ 32 - 2 ^ 22)
    (h6 : f.n6.toNat ≤ 2 ^ 32 - 2 ^ 22) (h7 : f.n7.toNat ≤ 2 ^ 32 - 2 ^ 22) (h8 : f.n8.toNat ≤ 2 ^ 32 - 2 ^ 22)
    (h9 : f.n9.toNat ≤ 2 ^ 32 - 2 ^ 22) :
    (FV.carryPass m f).val = f.val + m.toNat * (2 ^ 32 + 977) ∧
    (FV.carryPass m f).n0.toNat < 2 ^ 26 ∧ (FV.carryPass m f).n1.toNat < 2 ^ 26 ∧
    (FV.carryPass m f).n2.toNat < 2 ^ 26 ∧ (FV.carryPass m f).n3.toNat < 2 ^ 26 ∧
    (FV.carryPass m f).n4.toNat < 2 ^ 26 ∧ (FV.carryPass m f).n5.toNat < 2 ^ 26 ∧
    (FV.carryPass m f).n6.toNat < 2 ^ 26 ∧ (FV.carryPass m f).n7.toNat < 2 ^ 26 ∧
    (FV.carryPass m f).n8.toNat < 2 ^ 26 ∧ (FV.carryPass m f).n9.toNat ≤ f.n9.toNat + 63 := by
  unfold FV.carryPass
  extract_lets t0 t1 t2 t3 t4 t5 t6 t7 t8 t9
  have e0 : t0.toNat = f.n0.toNat + m.toNat * 977 := by
    simp only [t0, UInt32.toNat_add, UInt32.toNat_mul, UInt32.reduceToNat, Nat.add_mod_mod]
    exact Nat.mod_eq_of_lt (by omega)
  have e1 : t1.toNat = t0.toNat / 2 ^ 26 + f.n1.toNat + m.toNat * 64 := by
    simp only [t1, UInt32.toNat_add, u32_shr26, u32_shl6, Nat.mod_add_mod, Nat.add_mod_mod]
    exact Nat.mod_eq_of_lt (by omega)
  clear_value t0
  have e2 : t2.toNat = t1.toNat / 2 ^ 26 + f.n2.toNat := by
    simp only [t2, UInt32.toNat_add, u32_shr26]; exact Nat.mod_eq_of_lt (by omega)
  clear_value t1
  have e3 : t3.toNat = t2.toNat / 2 ^ 26 + f.n3.toNat := by
    simp only [t3, UInt32.toNat_add, u32_shr26]; exact Nat.mod_eq_of_lt (by omega)
  clear_value t2
  have e4 : t4.toNat = t3.toNat / 2 ^ 26 + f.n4.toNat := by
    simp only [t4, UInt32.toNat_add, u32_shr26]; exact Nat.mod_eq_of_lt (by omega)
  clear_value t3
  have e5 : t5.toNat = t4.toNat / 2 ^ 26 + f.n5.toNat := by
    simp only [t5, UInt32.toNat_add, u32_shr26]; exact Nat.mod_eq_of_lt (by omega)
  clear_value t4
  have e6 : t6.toNat = t5.toNat / 2 ^ 26 + f.n6.toNat := by
    simp only [t6, UInt32.toNat_add, u32_shr26]; exact Nat.mod_eq_of_lt (by omega)
  clear_value t5
  have e7 : t7.toNat = t6.toNat / 2 ^ 26 + f.n7.toNat := by
    simp only [t7, UInt32.toNat_add, u32_shr26]; exact Nat.mod_eq_of_lt (by omega)
  clear_value t6
  have e8 : t8.toNat = t7.toNat / 2 ^ 26 + f.n8.toNat := by
    simp only [t8, UInt32.toNat_add, u32_shr26]; exact Nat.mod_eq_of_lt (by omega)
  clear_value t7
  have e9 : t9.toNat = t8.toNat / 2 ^ 26 + f.n9.toNat := by
    simp only [t9, UInt32.toNat_add, u32_shr26]; exact Nat.mod_eq_of_lt (by omega)
  clear_value t8 t9
  have l8 := t8.toNat_lt
  simp only [FV.val, u32_mask26]
  refine ⟨?_, ?_, ?_, ?_, ?_, ?_, ?_, ?_, ?_, ?_, ?_⟩
  · omega
  all_goals omega

theorem and_mask {a b : UInt32} (ha : a.toNat < 2 ^ 26) (h : a &&& b = 0x3ffffff) : a.toNat = 2 ^ 26 - 1 := by
  have := congrArg UInt32.toNat h
  rw [UInt32.toNat_and] at this
  have l := Nat.and_le_left (n := a.toNat) (m := b.toNat)
  rw [this] at l
  have e : (0x3ffffff : UInt32).toNat = 2 ^ 26 - 1 := rfl
  omega

theorem and_mask' {a b : UInt32} (hb : b.toNat < 2 ^ 26) (h : a &&& b = 0x3ffffff) : b.toNat = 2 ^ 26 - 1 := by
  have := congrArg UInt32.toNat h
  rw [UInt32.toNat_and] at this
  have l := Nat.and_le_right (n := a.toNat) (m := b.toNat)
  rw [this] at l
  have e : (0x3ffffff : UInt32).toNat = 2 ^ 26 - 1 := rfl
  omega

/-- The overflow flag says whether the value has reached P. -/
theorem overflow_spec (t : FV) (h0 : t.n0.toNat < 2 ^ 26) (h1 : t.n1.toNat < 2 ^ 26) (h2 : t.n2.toNat < 2 ^ 26)
    (h3 : t.n3.toNat < 2 ^ 26) (h4 : t.n4.toNat < 2 ^ 26) (h5 : t.n5.toNat < 2 ^ 26) (h6 : t.n6.toNat < 2 ^ 26)
    (h7 : t.n7.toNat < 2 ^ 26) (h8 : t.n8.toNat < 2 ^ 26) :
    t.overflow.toNat = if p ≤ t.val then 1 else 0 := by
  have lo : (((t.n0 + 977) >>> 26) + t.n1 + 64 > 0x3ffffff) ↔ 2 ^ 52 ≤ t.n0.toNat + 977 + (t.n1.toNat + 64) * 2 ^ 26 := by
    rw [gt_iff_lt, UInt32.lt_iff_toNat_lt]
    simp only [UInt32.toNat_add, u32_shr26, UInt32.reduceToNat, Nat.mod_add_mod]
    rw [Nat.mod_eq_of_lt (a := t.n0.toNat + 977) (by omega), Nat.mod_eq_of_lt (by omega)]
    omega
  have top : t.n9 >>> 22 ≠ 0 ↔ 2 ^ 22 ≤ t.n9.toNat := by
    rw [Ne, ← UInt32.toNat_inj, u32_shr22]
    have : (0 : UInt32).toNat = 0 := rfl
    omega
  have e9 : t.n9 = 0x3fffff ↔ t.n9.toNat = 2 ^ 22 - 1 := by
    rw [← UInt32.toNat_inj]; rfl
  have mid : (t.n2 &&& t.n3 &&& t.n4 &&& t.n5 &&& t.n6 &&& t.n7 &&& t.n8 = 0x3ffffff) ↔
      (t.n2.toNat = 2 ^ 26 - 1 ∧ t.n3.toNat = 2 ^ 26 - 1 ∧ t.n4.toNat = 2 ^ 26 - 1 ∧ t.n5.toNat = 2 ^ 26 - 1 ∧
        t.n6.toNat = 2 ^ 26 - 1 ∧ t.n7.toNat = 2 ^ 26 - 1 ∧ t.n8.toNat = 2 ^ 26 - 1) := by
    constructor
    · intro h
      have lm : ∀ {a b : UInt32}, a &&& b = 0x3ffffff → b.toNat < 2 ^ 26 → a.toNat < 2 ^ 26 → a = 0x3ffffff := by
        intro a b hab _ ha
        rw [← UInt32.toNat_inj]; exact and_mask ha hab
      have la : ∀ {a b : UInt32}, a.toNat < 2 ^ 26 → (a &&& b).toNat < 2 ^ 26 := by
        intro a b ha; rw [UInt32.toNat_and]; exact lt_of_le_of_lt Nat.and_le_left ha
      have l3 := la (b := t.n3) h2
      have l4 := la (b := t.n4) l3
      have l5 := la (b := t.n5) l4
      have l6 := la (b := t.n6) l5
      have l7 := la (b := t.n7) l6
      have g8 := and_mask' h8 h
      have q7 := lm h h8 l7
      have g7 := and_mask' h7 q7
      have q6 := lm q7 h7 l6
      have g6 := and_mask' h6 q6
      have q5 := lm q6 h6 l5
      have g5 := and_mask' h5 q5
      have q4 := lm q5 h5 l4
      have g4 := and_mask' h4 q4
      have q3 := lm q4 h4 l3
      exact ⟨and_mask h2 q3, and_mask' h3 q3, g4, g5, g6, g7, g8⟩
    · rintro ⟨g2, g3, g4, g5, g6, g7, g8⟩
      rw [← UInt32.toNat_inj]
      simp only [UInt32.toNat_and, g2, g3, g4, g5, g6, g7, g8]
      decide
  unfold FV.overflow
  simp only [lo, top, e9, mid]
  have hv : p ≤ t.val ↔ (2 ^ 22 ≤ t.n9.toNat ∨ (t.n9.toNat = 2 ^ 22 - 1 ∧
      (t.n2.toNat = 2 ^ 26 - 1 ∧ t.n3.toNat = 2 ^ 26 - 1 ∧ t.n4.toNat = 2 ^ 26 - 1 ∧ t.n5.toNat = 2 ^ 26 - 1 ∧
        t.n6.toNat = 2 ^ 26 - 1 ∧ t.n7.toNat = 2 ^ 26 - 1 ∧ t.n8.toNat = 2 ^ 26 - 1) ∧
      2 ^ 52 ≤ t.n0.toNat + 977 + (t.n1.toNat + 64) * 2 ^ 26)) := by
    unfold p FV.val
    constructor
    · intro h
      by_cases ht : 2 ^ 22 ≤ t.n9.toNat
      · exact Or.inl ht
      · right
        have a9 : t.n9.toNat = 2 ^ 22 - 1 := by omega
        have a8 : t.n8.toNat = 2 ^ 26 - 1 := by omega
        have a7 : t.n7.toNat = 2 ^ 26 - 1 := by omega
        have a6 : t.n6.toNat = 2 ^ 26 - 1 := by omega
        have a5 : t.n5.toNat = 2 ^ 26 - 1 := by omega
        have a4 : t.n4.toNat = 2 ^ 26 - 1 := by omega
        have a3 : t.n3.toNat = 2 ^ 26 - 1 := by omega
        have a2 : t.n2.toNat = 2 ^ 26 - 1 := by omega
        exact ⟨a9, ⟨a2, a3, a4, a5, a6, a7, a8⟩, by omega⟩
    · rintro (h | ⟨a9, ⟨a2, a3, a4, a5, a6, a7, a8⟩, h⟩)
      · omega
      · omega
  rw [if_congr hv rfl rfl]
  by_cases c1 : t.n9.toNat = 2 ^ 22 - 1 <;>
  by_cases c2 : (t.n2.toNat = 2 ^ 26 - 1 ∧ t.n3.toNat = 2 ^ 26 - 1 ∧ t.n4.toNat = 2 ^ 26 - 1 ∧ t.n5.toNat = 2 ^ 26 - 1 ∧
        t.n6.toNat = 2 ^ 26 - 1 ∧ t.n7.toNat = 2 ^ 26 - 1 ∧ t.n8.toNat = 2 ^ 26 - 1) <;>
  by_cases c3 : 2 ^ 52 ≤ t.n0.toNat + 977 + (t.n1.toNat + 64) * 2 ^ 26 <;>
  by_cases c4 : 2 ^ 22 ≤ t.n9.toNat <;>
  simp only [c1, c2, c3, c4, if_true, if_false, and_true, and_false, or_true, or_false] <;>
  rfl

end Tss.Secp
