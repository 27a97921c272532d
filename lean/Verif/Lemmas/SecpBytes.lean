import Verif.Lemmas.SecpReduce
import Mathlib.Data.List.GetD
/-
SetBytes, SetByteSlice and PutBytes of btcec's field elements: big-endian values.
-/
namespace Tss.Secp
open Tss

/-- The or of words with disjoint bits is their sum. -/
theorem or_add {x y : UInt32} (k c : Nat) (hx : x.toNat < 2 ^ k) (hy : y.toNat = 2 ^ k * c) :
    (x ||| y).toNat = x.toNat + 2 ^ k * c := by
  rw [UInt32.toNat_or, hy, Nat.or_comm, ← Nat.two_pow_add_eq_or_of_lt hx, Nat.add_comm]

theorem b32 (x : UInt8) : x.toUInt32.toNat = x.toNat := rfl

theorem u32_mask (x : UInt32) (k : Nat) (m : UInt32) (hm : m.toNat = 2 ^ k - 1) : (x &&& m).toNat = x.toNat % 2 ^ k := by
  rw [UInt32.toNat_and, hm]; exact Nat.and_two_pow_sub_one_eq_mod x.toNat k

theorem u32_shr (x s : UInt32) (k : Nat) (hs : s.toNat % 32 = k) : (x >>> s).toNat = x.toNat / 2 ^ k := by
  rw [UInt32.toNat_shiftRight, hs, Nat.shiftRight_eq_div_pow]

theorem u32_shl (x s : UInt32) (k : Nat) (hs : s.toNat % 32 = k) (hx : x.toNat * 2 ^ k < 2 ^ 32) :
    (x <<< s).toNat = 2 ^ k * x.toNat := by
  rw [UInt32.toNat_shiftLeft, hs, Nat.shiftLeft_eq, Nat.mod_eq_of_lt hx, Nat.mul_comm]

theorem to8 (x : UInt32) (h : x.toNat < 256) : x.toUInt8.toNat = x.toNat := by
  rw [UInt32.toNat_toUInt8]; exact Nat.mod_eq_of_lt h

/-- The four shapes of word in SetBytes. -/
theorem wordA (a b c d : UInt8) :
    (a.toUInt32 ||| (b.toUInt32 <<< 8) ||| (c.toUInt32 <<< 16) ||| ((d.toUInt32 &&& 0x3) <<< 24)).toNat =
      a.toNat + 2 ^ 8 * b.toNat + 2 ^ 16 * c.toNat + 2 ^ 24 * (d.toNat % 2 ^ 2) := by
  have la := a.toNat_lt; have lb := b.toNat_lt; have lc := c.toNat_lt
  have h1 := u32_shl b.toUInt32 8 8 rfl (by rw [b32]; omega)
  have h2 := u32_shl c.toUInt32 16 16 rfl (by rw [b32]; omega)
  have h0 := u32_mask d.toUInt32 2 0x3 rfl
  have h3 := u32_shl (d.toUInt32 &&& 0x3) 24 24 rfl (by rw [h0]; omega)
  rw [h0] at h3; rw [b32] at h1 h2 h3
  have s1 := or_add (x := a.toUInt32) 8 _ la h1
  have s2 := or_add 16 _ (by rw [s1, b32]; omega) h2
  rw [or_add 24 _ (by rw [s2, s1, b32]; omega) h3, s2, s1, b32]

theorem wordB (e a b c : UInt8) :
    ((e.toUInt32 >>> 2) ||| (a.toUInt32 <<< 6) ||| (b.toUInt32 <<< 14) ||| ((c.toUInt32 &&& 0xf) <<< 22)).toNat =
      e.toNat / 2 ^ 2 + 2 ^ 6 * a.toNat + 2 ^ 14 * b.toNat + 2 ^ 22 * (c.toNat % 2 ^ 4) := by
  have le := e.toNat_lt; have la := a.toNat_lt; have lb := b.toNat_lt; have lc := c.toNat_lt
  have hs := u32_shr e.toUInt32 2 2 rfl
  have h1 := u32_shl a.toUInt32 6 6 rfl (by rw [b32]; omega)
  have h2 := u32_shl b.toUInt32 14 14 rfl (by rw [b32]; omega)
  have h0 := u32_mask c.toUInt32 4 0xf rfl
  have h3 := u32_shl (c.toUInt32 &&& 0xf) 22 22 rfl (by rw [h0]; omega)
  rw [h0] at h3; rw [b32] at h1 h2 h3 hs
  have s1 := or_add 6 _ (by rw [hs]; omega) h1
  have s2 := or_add 14 _ (by rw [s1, hs]; omega) h2
  rw [or_add 22 _ (by rw [s2, s1, hs]; omega) h3, s2, s1, hs]

theorem wordC (e a b c : UInt8) :
    ((e.toUInt32 >>> 4) ||| (a.toUInt32 <<< 4) ||| (b.toUInt32 <<< 12) ||| ((c.toUInt32 &&& 0x3f) <<< 20)).toNat =
      e.toNat / 2 ^ 4 + 2 ^ 4 * a.toNat + 2 ^ 12 * b.toNat + 2 ^ 20 * (c.toNat % 2 ^ 6) := by
  have le := e.toNat_lt; have la := a.toNat_lt; have lb := b.toNat_lt; have lc := c.toNat_lt
  have hs := u32_shr e.toUInt32 4 4 rfl
  have h1 := u32_shl a.toUInt32 4 4 rfl (by rw [b32]; omega)
  have h2 := u32_shl b.toUInt32 12 12 rfl (by rw [b32]; omega)
  have h0 := u32_mask c.toUInt32 6 0x3f rfl
  have h3 := u32_shl (c.toUInt32 &&& 0x3f) 20 20 rfl (by rw [h0]; omega)
  rw [h0] at h3; rw [b32] at h1 h2 h3 hs
  have s1 := or_add 4 _ (by rw [hs]; omega) h1
  have s2 := or_add 12 _ (by rw [s1, hs]; omega) h2
  rw [or_add 20 _ (by rw [s2, s1, hs]; omega) h3, s2, s1, hs]

theorem wordD (e a b c : UInt8) :
    ((e.toUInt32 >>> 6) ||| (a.toUInt32 <<< 2) ||| (b.toUInt32 <<< 10) ||| (c.toUInt32 <<< 18)).toNat =
      e.toNat / 2 ^ 6 + 2 ^ 2 * a.toNat + 2 ^ 10 * b.toNat + 2 ^ 18 * c.toNat := by
  have le := e.toNat_lt; have la := a.toNat_lt; have lb := b.toNat_lt; have lc := c.toNat_lt
  have hs := u32_shr e.toUInt32 6 6 rfl
  have h1 := u32_shl a.toUInt32 2 2 rfl (by rw [b32]; omega)
  have h2 := u32_shl b.toUInt32 10 10 rfl (by rw [b32]; omega)
  have h3 := u32_shl c.toUInt32 18 18 rfl (by rw [b32]; omega)
  rw [b32] at h1 h2 h3 hs
  have s1 := or_add 2 _ (by rw [hs]; omega) h1
  have s2 := or_add 10 _ (by rw [s1, hs]; omega) h2
  rw [or_add 18 _ (by rw [s2, s1, hs]; omega) h3, s2, s1, hs]

theorem wordE (e a b : UInt8) :
    ((e.toUInt32 >>> 2) ||| (a.toUInt32 <<< 6) ||| (b.toUInt32 <<< 14)).toNat =
      e.toNat / 2 ^ 2 + 2 ^ 6 * a.toNat + 2 ^ 14 * b.toNat := by
  have le := e.toNat_lt; have la := a.toNat_lt; have lb := b.toNat_lt
  have hs := u32_shr e.toUInt32 2 2 rfl
  have h1 := u32_shl a.toUInt32 6 6 rfl (by rw [b32]; omega)
  have h2 := u32_shl b.toUInt32 14 14 rfl (by rw [b32]; omega)
  rw [b32] at h1 h2 hs
  have s1 := or_add 6 _ (by rw [hs]; omega) h1
  rw [or_add 14 _ (by rw [s1, hs]; omega) h2, s1, hs]

/-- SetBytes yields the big-endian value, in words within their bits. -/
theorem setBytes_spec (b : Nat → UInt8) : (FV.setBytes b).Tight ∧
    (FV.setBytes b).val = (b 31).toNat + (b 30).toNat * 2 ^ 8 + (b 29).toNat * 2 ^ 16 + (b 28).toNat * 2 ^ 24 + (b 27).toNat * 2 ^ 32 + (b 26).toNat * 2 ^ 40 + (b 25).toNat * 2 ^ 48 + (b 24).toNat * 2 ^ 56 + (b 23).toNat * 2 ^ 64 + (b 22).toNat * 2 ^ 72 + (b 21).toNat * 2 ^ 80 + (b 20).toNat * 2 ^ 88 + (b 19).toNat * 2 ^ 96 + (b 18).toNat * 2 ^ 104 + (b 17).toNat * 2 ^ 112 + (b 16).toNat * 2 ^ 120 + (b 15).toNat * 2 ^ 128 + (b 14).toNat * 2 ^ 136 + (b 13).toNat * 2 ^ 144 + (b 12).toNat * 2 ^ 152 + (b 11).toNat * 2 ^ 160 + (b 10).toNat * 2 ^ 168 + (b 9).toNat * 2 ^ 176 + (b 8).toNat * 2 ^ 184 + (b 7).toNat * 2 ^ 192 + (b 6).toNat * 2 ^ 200 + (b 5).toNat * 2 ^ 208 + (b 4).toNat * 2 ^ 216 + (b 3).toNat * 2 ^ 224 + (b 2).toNat * 2 ^ 232 + (b 1).toNat * 2 ^ 240 + (b 0).toNat * 2 ^ 248 := by
  have l0 := (b 0).toNat_lt
  have l1 := (b 1).toNat_lt
  have l2 := (b 2).toNat_lt
  have l3 := (b 3).toNat_lt
  have l4 := (b 4).toNat_lt
  have l5 := (b 5).toNat_lt
  have l6 := (b 6).toNat_lt
  have l7 := (b 7).toNat_lt
  have l8 := (b 8).toNat_lt
  have l9 := (b 9).toNat_lt
  have l10 := (b 10).toNat_lt
  have l11 := (b 11).toNat_lt
  have l12 := (b 12).toNat_lt
  have l13 := (b 13).toNat_lt
  have l14 := (b 14).toNat_lt
  have l15 := (b 15).toNat_lt
  have l16 := (b 16).toNat_lt
  have l17 := (b 17).toNat_lt
  have l18 := (b 18).toNat_lt
  have l19 := (b 19).toNat_lt
  have l20 := (b 20).toNat_lt
  have l21 := (b 21).toNat_lt
  have l22 := (b 22).toNat_lt
  have l23 := (b 23).toNat_lt
  have l24 := (b 24).toNat_lt
  have l25 := (b 25).toNat_lt
  have l26 := (b 26).toNat_lt
  have l27 := (b 27).toNat_lt
  have l28 := (b 28).toNat_lt
  have l29 := (b 29).toNat_lt
  have l30 := (b 30).toNat_lt
  have l31 := (b 31).toNat_lt
  have w0 : (FV.setBytes b).n0.toNat = _ := wordA (b 31) (b 30) (b 29) (b 28)
  have w1 : (FV.setBytes b).n1.toNat = _ := wordB (b 28) (b 27) (b 26) (b 25)
  have w2 : (FV.setBytes b).n2.toNat = _ := wordC (b 25) (b 24) (b 23) (b 22)
  have w3 : (FV.setBytes b).n3.toNat = _ := wordD (b 22) (b 21) (b 20) (b 19)
  have w4 : (FV.setBytes b).n4.toNat = _ := wordA (b 18) (b 17) (b 16) (b 15)
  have w5 : (FV.setBytes b).n5.toNat = _ := wordB (b 15) (b 14) (b 13) (b 12)
  have w6 : (FV.setBytes b).n6.toNat = _ := wordC (b 12) (b 11) (b 10) (b 9)
  have w7 : (FV.setBytes b).n7.toNat = _ := wordD (b 9) (b 8) (b 7) (b 6)
  have w8 : (FV.setBytes b).n8.toNat = _ := wordA (b 5) (b 4) (b 3) (b 2)
  have w9 : (FV.setBytes b).n9.toNat = _ := wordE (b 2) (b 1) (b 0)
  constructor
  · refine ⟨?_, ?_, ?_, ?_, ?_, ?_, ?_, ?_, ?_, ?_⟩
    · rw [w0]; clear w0 w1 w2 w3 w4 w5 w6 w7 w8 w9 l0 l1 l2 l3 l4 l5 l6 l7 l8 l9 l10 l11 l12 l13 l14 l15 l16 l17 l18 l19 l20 l21 l22 l23 l24 l25 l26 l27; omega
    · rw [w1]; clear w0 w1 w2 w3 w4 w5 w6 w7 w8 w9 l0 l1 l2 l3 l4 l5 l6 l7 l8 l9 l10 l11 l12 l13 l14 l15 l16 l17 l18 l19 l20 l21 l22 l23 l24 l29 l30 l31; omega
    · rw [w2]; clear w0 w1 w2 w3 w4 w5 w6 w7 w8 w9 l0 l1 l2 l3 l4 l5 l6 l7 l8 l9 l10 l11 l12 l13 l14 l15 l16 l17 l18 l19 l20 l21 l26 l27 l28 l29 l30 l31; omega
    · rw [w3]; clear w0 w1 w2 w3 w4 w5 w6 w7 w8 w9 l0 l1 l2 l3 l4 l5 l6 l7 l8 l9 l10 l11 l12 l13 l14 l15 l16 l17 l18 l23 l24 l25 l26 l27 l28 l29 l30 l31; omega
    · rw [w4]; clear w0 w1 w2 w3 w4 w5 w6 w7 w8 w9 l0 l1 l2 l3 l4 l5 l6 l7 l8 l9 l10 l11 l12 l13 l14 l19 l20 l21 l22 l23 l24 l25 l26 l27 l28 l29 l30 l31; omega
    · rw [w5]; clear w0 w1 w2 w3 w4 w5 w6 w7 w8 w9 l0 l1 l2 l3 l4 l5 l6 l7 l8 l9 l10 l11 l16 l17 l18 l19 l20 l21 l22 l23 l24 l25 l26 l27 l28 l29 l30 l31; omega
    · rw [w6]; clear w0 w1 w2 w3 w4 w5 w6 w7 w8 w9 l0 l1 l2 l3 l4 l5 l6 l7 l8 l13 l14 l15 l16 l17 l18 l19 l20 l21 l22 l23 l24 l25 l26 l27 l28 l29 l30 l31; omega
    · rw [w7]; clear w0 w1 w2 w3 w4 w5 w6 w7 w8 w9 l0 l1 l2 l3 l4 l5 l10 l11 l12 l13 l14 l15 l16 l17 l18 l19 l20 l21 l22 l23 l24 l25 l26 l27 l28 l29 l30 l31; omega
    · rw [w8]; clear w0 w1 w2 w3 w4 w5 w6 w7 w8 w9 l0 l1 l6 l7 l8 l9 l10 l11 l12 l13 l14 l15 l16 l17 l18 l19 l20 l21 l22 l23 l24 l25 l26 l27 l28 l29 l30 l31; omega
    · rw [w9]; clear w0 w1 w2 w3 w4 w5 w6 w7 w8 w9 l3 l4 l5 l6 l7 l8 l9 l10 l11 l12 l13 l14 l15 l16 l17 l18 l19 l20 l21 l22 l23 l24 l25 l26 l27 l28 l29 l30 l31; omega
  · unfold FV.val
    rw [w0, w1, w2, w3, w4, w5, w6, w7, w8, w9]
    clear w0 w1 w2 w3 w4 w5 w6 w7 w8 w9 l0 l1 l2 l3 l4 l5 l6 l7 l8 l9 l10 l11 l12 l13 l14 l15 l16 l17 l18 l19 l20 l21 l22 l23 l24 l25 l26 l27 l28 l29 l30 l31
    have s28 := Nat.div_add_mod (b 28).toNat (2 ^ 2)
    have s25 := Nat.div_add_mod (b 25).toNat (2 ^ 4)
    have s22 := Nat.div_add_mod (b 22).toNat (2 ^ 6)
    have s15 := Nat.div_add_mod (b 15).toNat (2 ^ 2)
    have s12 := Nat.div_add_mod (b 12).toNat (2 ^ 4)
    have s9 := Nat.div_add_mod (b 9).toNat (2 ^ 6)
    have s2 := Nat.div_add_mod (b 2).toNat (2 ^ 2)
    generalize (b 28).toNat / 2 ^ 2 = q28 at *
    generalize (b 28).toNat % 2 ^ 2 = r28 at *
    generalize (b 25).toNat / 2 ^ 4 = q25 at *
    generalize (b 25).toNat % 2 ^ 4 = r25 at *
    generalize (b 22).toNat / 2 ^ 6 = q22 at *
    generalize (b 22).toNat % 2 ^ 6 = r22 at *
    generalize (b 15).toNat / 2 ^ 2 = q15 at *
    generalize (b 15).toNat % 2 ^ 2 = r15 at *
    generalize (b 12).toNat / 2 ^ 4 = q12 at *
    generalize (b 12).toNat % 2 ^ 4 = r12 at *
    generalize (b 9).toNat / 2 ^ 6 = q9 at *
    generalize (b 9).toNat % 2 ^ 6 = r9 at *
    generalize (b 2).toNat / 2 ^ 2 = q2 at *
    generalize (b 2).toNat % 2 ^ 2 = r2 at *
    zify at *
    linear_combination 2 ^ 24 * s28 + 2 ^ 48 * s25 + 2 ^ 72 * s22 + 2 ^ 128 * s15 + 2 ^ 152 * s12 + 2 ^ 176 * s9 + 2 ^ 232 * s2

theorem beNat_32 (f : Nat → UInt8) : beNat ((List.range 32).map f) = (f 31).toNat + (f 30).toNat * 2 ^ 8 + (f 29).toNat * 2 ^ 16 + (f 28).toNat * 2 ^ 24 + (f 27).toNat * 2 ^ 32 + (f 26).toNat * 2 ^ 40 + (f 25).toNat * 2 ^ 48 + (f 24).toNat * 2 ^ 56 + (f 23).toNat * 2 ^ 64 + (f 22).toNat * 2 ^ 72 + (f 21).toNat * 2 ^ 80 + (f 20).toNat * 2 ^ 88 + (f 19).toNat * 2 ^ 96 + (f 18).toNat * 2 ^ 104 + (f 17).toNat * 2 ^ 112 + (f 16).toNat * 2 ^ 120 + (f 15).toNat * 2 ^ 128 + (f 14).toNat * 2 ^ 136 + (f 13).toNat * 2 ^ 144 + (f 12).toNat * 2 ^ 152 + (f 11).toNat * 2 ^ 160 + (f 10).toNat * 2 ^ 168 + (f 9).toNat * 2 ^ 176 + (f 8).toNat * 2 ^ 184 + (f 7).toNat * 2 ^ 192 + (f 6).toNat * 2 ^ 200 + (f 5).toNat * 2 ^ 208 + (f 4).toNat * 2 ^ 216 + (f 3).toNat * 2 ^ 224 + (f 2).toNat * 2 ^ 232 + (f 1).toNat * 2 ^ 240 + (f 0).toNat * 2 ^ 248 := by
  simp only [List.range, List.range.loop, List.map, beNat, List.foldl]
  ring

theorem list32 {l : Bytes} (h : l.length = 32) : (List.range 32).map (fun i => l.getD i 0) = l := by
  apply List.ext_getElem
  · simp [h]
  · intro i h1 h2
    simp only [List.getElem_map, List.getElem_range, List.getD_eq_getElem _ _ h2]

theorem setBytes_val (b : Nat → UInt8) : (FV.setBytes b).val = beNat ((List.range 32).map b) :=
  (setBytes_spec b).2.trans (beNat_32 b).symm

/-- SetByteSlice of at most 32 bytes yields their big-endian value. -/
theorem setByteSlice_spec {b : Bytes} (h : b.length ≤ 32) :
    (FV.setByteSlice b).Tight ∧ (FV.setByteSlice b).val = beNat b := by
  unfold FV.setByteSlice
  rw [if_neg (by omega)]
  simp only
  refine ⟨(setBytes_spec _).1, ?_⟩
  rw [setBytes_val, list32 (by simp; omega), beNat_zeros_append]

theorem byte_lo (x s : UInt32) (k : Nat) (hs : s.toNat % 32 = k) :
    ((x >>> s) &&& (0xff : UInt32)).toUInt8.toNat = x.toNat / 2 ^ k % 2 ^ 8 := by
  have e : ((x >>> s) &&& (0xff : UInt32)).toNat = x.toNat / 2 ^ k % 2 ^ 8 := by
    rw [u32_mask _ 8 _ rfl, u32_shr _ _ k hs]
  rw [to8 _ (by rw [e]; omega), e]

theorem byte_zero (x : UInt32) : (x &&& (0xff : UInt32)).toUInt8.toNat = x.toNat % 2 ^ 8 := by
  have e : (x &&& (0xff : UInt32)).toNat = x.toNat % 2 ^ 8 := u32_mask _ 8 _ rfl
  rw [to8 _ (by rw [e]; omega), e]

theorem byte_mix (x y s s' ma mb : UInt32) (k i j : Nat) (hs : s.toNat % 32 = k) (hi : ma.toNat = 2 ^ i - 1)
    (hj : mb.toNat = 2 ^ j - 1) (hs' : s'.toNat % 32 = i) (h : i + j = 8) :
    (((x >>> s) &&& ma) ||| ((y &&& mb) <<< s')).toUInt8.toNat = x.toNat / 2 ^ k % 2 ^ i + 2 ^ i * (y.toNat % 2 ^ j) := by
  have e1 : ((x >>> s) &&& ma).toNat = x.toNat / 2 ^ k % 2 ^ i := by rw [u32_mask _ i _ hi, u32_shr _ _ k hs]
  have e2 : (y &&& mb).toNat = y.toNat % 2 ^ j := u32_mask _ j _ hj
  have l1 : x.toNat / 2 ^ k % 2 ^ i < 2 ^ i := Nat.mod_lt _ (by positivity)
  have l2 : y.toNat % 2 ^ j < 2 ^ j := Nat.mod_lt _ (by positivity)
  have l3 : 2 ^ i * (y.toNat % 2 ^ j) + 2 ^ i ≤ 256 := by
    calc 2 ^ i * (y.toNat % 2 ^ j) + 2 ^ i = 2 ^ i * (y.toNat % 2 ^ j + 1) := by ring
      _ ≤ 2 ^ i * 2 ^ j := Nat.mul_le_mul_left _ l2
      _ = 256 := by rw [← pow_add, h]; norm_num
  have e3 : ((y &&& mb) <<< s').toNat = 2 ^ i * (y.toNat % 2 ^ j) := by
    rw [u32_shl _ _ i hs' (by rw [e2, Nat.mul_comm]; omega), e2]
  have e4 := or_add i _ (by rw [e1]; exact l1) e3
  rw [to8 _ (by rw [e4, e1]; omega), e4, e1]

theorem bytes_length (f : FV) : f.bytes.length = 32 := rfl

theorem bytes_spec {f : FV} (h : f.Tight) : beNat f.bytes = f.val := by
  obtain ⟨h0, h1, h2, h3, h4, h5, h6, h7, h8, h9⟩ := h
  unfold FV.bytes beNat
  simp only [List.foldl]
  rw [byte_lo f.n9 14 14 rfl]
  rw [byte_lo f.n9 6 6 rfl]
  rw [byte_lo f.n8 16 16 rfl]
  rw [byte_lo f.n8 8 8 rfl]
  rw [byte_lo f.n7 18 18 rfl]
  rw [byte_lo f.n7 10 10 rfl]
  rw [byte_lo f.n7 2 2 rfl]
  rw [byte_lo f.n6 12 12 rfl]
  rw [byte_lo f.n6 4 4 rfl]
  rw [byte_lo f.n5 14 14 rfl]
  rw [byte_lo f.n5 6 6 rfl]
  rw [byte_lo f.n4 16 16 rfl]
  rw [byte_lo f.n4 8 8 rfl]
  rw [byte_lo f.n3 18 18 rfl]
  rw [byte_lo f.n3 10 10 rfl]
  rw [byte_lo f.n3 2 2 rfl]
  rw [byte_lo f.n2 12 12 rfl]
  rw [byte_lo f.n2 4 4 rfl]
  rw [byte_lo f.n1 14 14 rfl]
  rw [byte_lo f.n1 6 6 rfl]
  rw [byte_lo f.n0 16 16 rfl]
  rw [byte_lo f.n0 8 8 rfl]
  rw [byte_zero f.n8]
  rw [byte_zero f.n4]
  rw [byte_zero f.n0]
  rw [byte_mix f.n8 f.n9 24 2 0x3 0x3f 24 2 6 rfl rfl rfl rfl rfl]
  rw [byte_mix f.n6 f.n7 20 6 0x3f 0x3 20 6 2 rfl rfl rfl rfl rfl]
  rw [byte_mix f.n5 f.n6 22 4 0xf 0xf 22 4 4 rfl rfl rfl rfl rfl]
  rw [byte_mix f.n4 f.n5 24 2 0x3 0x3f 24 2 6 rfl rfl rfl rfl rfl]
  rw [byte_mix f.n2 f.n3 20 6 0x3f 0x3 20 6 2 rfl rfl rfl rfl rfl]
  rw [byte_mix f.n1 f.n2 22 4 0xf 0xf 22 4 4 rfl rfl rfl rfl rfl]
  rw [byte_mix f.n0 f.n1 24 2 0x3 0x3f 24 2 6 rfl rfl rfl rfl rfl]
  have s0 : f.n0.toNat = f.n0.toNat % 2 ^ 8 + 2 ^ 8 * (f.n0.toNat / 2 ^ 8 % 2 ^ 8) + 2 ^ 16 * (f.n0.toNat / 2 ^ 16 % 2 ^ 8) + 2 ^ 24 * (f.n0.toNat / 2 ^ 24 % 2 ^ 2) := by clear h1 h2 h3 h4 h5 h6 h7 h8 h9; omega
  have s1 : f.n1.toNat = f.n1.toNat % 2 ^ 6 + 2 ^ 6 * (f.n1.toNat / 2 ^ 6 % 2 ^ 8) + 2 ^ 14 * (f.n1.toNat / 2 ^ 14 % 2 ^ 8) + 2 ^ 22 * (f.n1.toNat / 2 ^ 22 % 2 ^ 4) := by clear h0 h2 h3 h4 h5 h6 h7 h8 h9 s0; omega
  have s2 : f.n2.toNat = f.n2.toNat % 2 ^ 4 + 2 ^ 4 * (f.n2.toNat / 2 ^ 4 % 2 ^ 8) + 2 ^ 12 * (f.n2.toNat / 2 ^ 12 % 2 ^ 8) + 2 ^ 20 * (f.n2.toNat / 2 ^ 20 % 2 ^ 6) := by clear h0 h1 h3 h4 h5 h6 h7 h8 h9 s0 s1; omega
  have s3 : f.n3.toNat = f.n3.toNat % 2 ^ 2 + 2 ^ 2 * (f.n3.toNat / 2 ^ 2 % 2 ^ 8) + 2 ^ 10 * (f.n3.toNat / 2 ^ 10 % 2 ^ 8) + 2 ^ 18 * (f.n3.toNat / 2 ^ 18 % 2 ^ 8) := by clear h0 h1 h2 h4 h5 h6 h7 h8 h9 s0 s1 s2; omega
  have s4 : f.n4.toNat = f.n4.toNat % 2 ^ 8 + 2 ^ 8 * (f.n4.toNat / 2 ^ 8 % 2 ^ 8) + 2 ^ 16 * (f.n4.toNat / 2 ^ 16 % 2 ^ 8) + 2 ^ 24 * (f.n4.toNat / 2 ^ 24 % 2 ^ 2) := by clear h0 h1 h2 h3 h5 h6 h7 h8 h9 s0 s1 s2 s3; omega
  have s5 : f.n5.toNat = f.n5.toNat % 2 ^ 6 + 2 ^ 6 * (f.n5.toNat / 2 ^ 6 % 2 ^ 8) + 2 ^ 14 * (f.n5.toNat / 2 ^ 14 % 2 ^ 8) + 2 ^ 22 * (f.n5.toNat / 2 ^ 22 % 2 ^ 4) := by clear h0 h1 h2 h3 h4 h6 h7 h8 h9 s0 s1 s2 s3 s4; omega
  have s6 : f.n6.toNat = f.n6.toNat % 2 ^ 4 + 2 ^ 4 * (f.n6.toNat / 2 ^ 4 % 2 ^ 8) + 2 ^ 12 * (f.n6.toNat / 2 ^ 12 % 2 ^ 8) + 2 ^ 20 * (f.n6.toNat / 2 ^ 20 % 2 ^ 6) := by clear h0 h1 h2 h3 h4 h5 h7 h8 h9 s0 s1 s2 s3 s4 s5; omega
  have s7 : f.n7.toNat = f.n7.toNat % 2 ^ 2 + 2 ^ 2 * (f.n7.toNat / 2 ^ 2 % 2 ^ 8) + 2 ^ 10 * (f.n7.toNat / 2 ^ 10 % 2 ^ 8) + 2 ^ 18 * (f.n7.toNat / 2 ^ 18 % 2 ^ 8) := by clear h0 h1 h2 h3 h4 h5 h6 h8 h9 s0 s1 s2 s3 s4 s5 s6; omega
  have s8 : f.n8.toNat = f.n8.toNat % 2 ^ 8 + 2 ^ 8 * (f.n8.toNat / 2 ^ 8 % 2 ^ 8) + 2 ^ 16 * (f.n8.toNat / 2 ^ 16 % 2 ^ 8) + 2 ^ 24 * (f.n8.toNat / 2 ^ 24 % 2 ^ 2) := by clear h0 h1 h2 h3 h4 h5 h6 h7 h9 s0 s1 s2 s3 s4 s5 s6 s7; omega
  have s9 : f.n9.toNat = f.n9.toNat % 2 ^ 6 + 2 ^ 6 * (f.n9.toNat / 2 ^ 6 % 2 ^ 8) + 2 ^ 14 * (f.n9.toNat / 2 ^ 14 % 2 ^ 8) := by clear h0 h1 h2 h3 h4 h5 h6 h7 h8 s0 s1 s2 s3 s4 s5 s6 s7 s8; omega
  unfold FV.val
  clear h0 h1 h2 h3 h4 h5 h6 h7 h8 h9
  generalize f.n0.toNat % 2 ^ 8 = x00 at *
  generalize f.n0.toNat / 2 ^ 8 % 2 ^ 8 = x01 at *
  generalize f.n0.toNat / 2 ^ 16 % 2 ^ 8 = x02 at *
  generalize f.n0.toNat / 2 ^ 24 % 2 ^ 2 = x03 at *
  generalize f.n1.toNat % 2 ^ 6 = x10 at *
  generalize f.n1.toNat / 2 ^ 6 % 2 ^ 8 = x11 at *
  generalize f.n1.toNat / 2 ^ 14 % 2 ^ 8 = x12 at *
  generalize f.n1.toNat / 2 ^ 22 % 2 ^ 4 = x13 at *
  generalize f.n2.toNat % 2 ^ 4 = x20 at *
  generalize f.n2.toNat / 2 ^ 4 % 2 ^ 8 = x21 at *
  generalize f.n2.toNat / 2 ^ 12 % 2 ^ 8 = x22 at *
  generalize f.n2.toNat / 2 ^ 20 % 2 ^ 6 = x23 at *
  generalize f.n3.toNat % 2 ^ 2 = x30 at *
  generalize f.n3.toNat / 2 ^ 2 % 2 ^ 8 = x31 at *
  generalize f.n3.toNat / 2 ^ 10 % 2 ^ 8 = x32 at *
  generalize f.n3.toNat / 2 ^ 18 % 2 ^ 8 = x33 at *
  generalize f.n4.toNat % 2 ^ 8 = x40 at *
  generalize f.n4.toNat / 2 ^ 8 % 2 ^ 8 = x41 at *
  generalize f.n4.toNat / 2 ^ 16 % 2 ^ 8 = x42 at *
  generalize f.n4.toNat / 2 ^ 24 % 2 ^ 2 = x43 at *
  generalize f.n5.toNat % 2 ^ 6 = x50 at *
  generalize f.n5.toNat / 2 ^ 6 % 2 ^ 8 = x51 at *
  generalize f.n5.toNat / 2 ^ 14 % 2 ^ 8 = x52 at *
  generalize f.n5.toNat / 2 ^ 22 % 2 ^ 4 = x53 at *
  generalize f.n6.toNat % 2 ^ 4 = x60 at *
  generalize f.n6.toNat / 2 ^ 4 % 2 ^ 8 = x61 at *
  generalize f.n6.toNat / 2 ^ 12 % 2 ^ 8 = x62 at *
  generalize f.n6.toNat / 2 ^ 20 % 2 ^ 6 = x63 at *
  generalize f.n7.toNat % 2 ^ 2 = x70 at *
  generalize f.n7.toNat / 2 ^ 2 % 2 ^ 8 = x71 at *
  generalize f.n7.toNat / 2 ^ 10 % 2 ^ 8 = x72 at *
  generalize f.n7.toNat / 2 ^ 18 % 2 ^ 8 = x73 at *
  generalize f.n8.toNat % 2 ^ 8 = x80 at *
  generalize f.n8.toNat / 2 ^ 8 % 2 ^ 8 = x81 at *
  generalize f.n8.toNat / 2 ^ 16 % 2 ^ 8 = x82 at *
  generalize f.n8.toNat / 2 ^ 24 % 2 ^ 2 = x83 at *
  generalize f.n9.toNat % 2 ^ 6 = x90 at *
  generalize f.n9.toNat / 2 ^ 6 % 2 ^ 8 = x91 at *
  generalize f.n9.toNat / 2 ^ 14 % 2 ^ 8 = x92 at *
  rw [s0, s1, s2, s3, s4, s5, s6, s7, s8, s9]
  ring

end Tss.Secp
