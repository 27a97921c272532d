import Verif.Lemmas.SecpBytes
import Verif.Lemmas.PrimesSecp
import Mathlib.FieldTheory.Finite.Basic
/-
Field elements as residues: a word vector of bounded magnitude stands for an element of Z/P.
-/
namespace Tss.Secp
open Tss

theorem p_prime : Nat.Prime p := PrimesSecp.secp_p_prime

instance : Fact (Nat.Prime p) := ⟨p_prime⟩

/-- The words have magnitude at most m and stand for the residue v. -/
def FV.Rp (m : Nat) (f : FV) (v : ZMod p) : Prop := f.Mag m ∧ (f.val : ZMod p) = v

theorem cast_eq_of_mod {a b : Nat} (h : a % p = b % p) : (a : ZMod p) = (b : ZMod p) :=
  (ZMod.natCast_eq_natCast_iff _ _ _).2 h

theorem FV.Rp.mono {m k : Nat} {f : FV} {v : ZMod p} (h : f.Rp m v) (hk : m ≤ k) : f.Rp k v := ⟨h.1.mono hk, h.2⟩

theorem FV.Rp.norm {m : Nat} {f : FV} {v : ZMod p} (hm : m ≤ 62) (h : f.Rp m v) : f.normalize.Rp 1 v ∧ f.normalize.Norm := by
  obtain ⟨h1, h2⟩ := normalize_spec hm h.1
  exact ⟨⟨h1.tight.mag, (cast_eq_of_mod h2).trans h.2⟩, h1⟩

theorem FV.Norm.val_eq {m : Nat} {f : FV} {v : ZMod p} (h : f.Norm) (hr : f.Rp m v) : f.val = v.val := by
  rw [← hr.2, ZMod.val_cast_of_lt h.lt]

theorem FV.Rp.neg {m : Nat} {f : FV} {v : ZMod p} (k : UInt32) (hm : m ≤ k.toNat) (hk : k.toNat ≤ 61) (h : f.Rp m v) :
    (f.negate k).Rp (k.toNat + 1) (-v) := by
  obtain ⟨h1, h2⟩ := negate_spec hm hk h.1
  refine ⟨h1, ?_⟩
  have := congrArg (Nat.cast (R := ZMod p)) h2
  rw [Nat.cast_add, Nat.cast_mul, ZMod.natCast_self, mul_zero, h.2] at this
  exact eq_neg_of_add_eq_zero_left this

theorem FV.Rp.add {m n : Nat} {f g : FV} {v u : ZMod p} (hf : f.Rp m v) (hg : g.Rp n u) (hmn : m + n ≤ 63) :
    (f.add g).Rp (m + n) (v + u) := by
  obtain ⟨h1, h2⟩ := add_spec hmn hf.1 hg.1
  exact ⟨h1, by rw [h2, Nat.cast_add, hf.2, hg.2]⟩

theorem FV.Rp.addInt {m : Nat} {f : FV} {v : ZMod p} (c : Nat) (h : f.Rp m v) (hc : c ≤ 1000) (hm : m ≤ 62) :
    (f.addInt c).Rp (m + 1) (v + c) := by
  obtain ⟨h1, h2⟩ := addInt_spec hc hm h.1
  exact ⟨h1, by rw [h2, Nat.cast_add, h.2]⟩

theorem FV.Rp.mulInt {m : Nat} {f : FV} {v : ZMod p} (c : Nat) (h : f.Rp m v) (hc : c ≤ 63) (hm : m * c ≤ 63) :
    (f.mulInt c).Rp (m * c) (v * c) := by
  obtain ⟨h1, h2⟩ := mulInt_spec hc hm h.1
  exact ⟨h1, by rw [h2, Nat.cast_mul, h.2]⟩

theorem FV.Rp.mul {m n : Nat} {f g : FV} {v u : ZMod p} (hf : f.Rp m v) (hg : g.Rp n u) (hm : m ≤ 8) (hn : n ≤ 8) :
    (f.mul g).Rp 1 (v * u) := by
  obtain ⟨h1, h2⟩ := mul_spec (hf.1.mono hm) (hg.1.mono hn)
  refine ⟨h1, ?_⟩
  rw [cast_eq_of_mod h2, Nat.cast_mul, hf.2, hg.2]

theorem FV.Rp.square {m : Nat} {f : FV} {v : ZMod p} (hf : f.Rp m v) (hm : m ≤ 8) : f.square.Rp 1 (v ^ 2) := by
  obtain ⟨h1, h2⟩ := square_spec (hf.1.mono hm)
  refine ⟨h1, ?_⟩
  rw [cast_eq_of_mod h2, Nat.cast_mul, hf.2, sq]

theorem FV.Rp.zero : FV.zero.Rp 0 0 := ⟨by constructor <;> decide, by simp [FV.val, FV.zero]⟩

theorem FV.zero_norm : FV.zero.Norm := ⟨by constructor <;> decide, by decide +kernel⟩

theorem setInt_spec (c : Nat) (h : c < 2 ^ 26) : (FV.setInt c).Norm ∧ (FV.setInt c).val = c := by
  have e : (UInt32.ofNat c).toNat = c := by rw [UInt32.toNat_ofNat']; exact Nat.mod_eq_of_lt (by omega)
  have v : (FV.setInt c).val = c := by
    unfold FV.val FV.setInt FV.zero
    simp only [e, UInt32.toNat_zero, Nat.zero_mul, Nat.add_zero]
  refine ⟨⟨?_, ?_⟩, v⟩
  · constructor <;> simp only [FV.setInt, FV.zero, e, UInt32.toNat_zero] <;> omega
  · rw [v]; unfold p; omega

theorem FV.Rp.setInt (c : Nat) (h : c < 2 ^ 26) : (FV.setInt c).Rp 1 c := by
  obtain ⟨h1, h2⟩ := setInt_spec c h
  exact ⟨h1.tight.mag, by rw [h2]⟩

theorem FV.Rp.setByteSlice {b : Bytes} (h : b.length ≤ 32) : (FV.setByteSlice b).Rp 1 (beNat b : ZMod p) := by
  obtain ⟨h1, h2⟩ := setByteSlice_spec h
  exact ⟨h1.mag, by rw [h2]⟩

theorem FV.Norm.bytes {m : Nat} {f : FV} {v : ZMod p} (h : f.Norm) (hr : f.Rp m v) : beNat f.bytes = v.val := by
  rw [bytes_spec h.tight, h.val_eq hr]

/-! ### Comparisons of normalised values -/

theorem or_zero_iff {a b : UInt32} : a ||| b = 0 ↔ a = 0 ∧ b = 0 := by
  constructor
  · intro h
    have := congrArg UInt32.toNat h
    rw [UInt32.toNat_or] at this
    have z : (0 : UInt32).toNat = 0 := rfl
    rw [z, Nat.or_eq_zero_iff] at this
    exact ⟨UInt32.toNat_inj.1 (this.1.trans z.symm), UInt32.toNat_inj.1 (this.2.trans z.symm)⟩
  · rintro ⟨rfl, rfl⟩; rfl

theorem isZero_iff (f : FV) : f.isZero = true ↔ f = FV.zero := by
  unfold FV.isZero FV.zero
  rw [beq_iff_eq]
  simp only [or_zero_iff]
  cases f
  simp only [FV.mk.injEq, and_assoc]

theorem xor_zero_iff {a b : UInt32} : a ^^^ b = 0 ↔ a = b := UInt32.xor_eq_zero_iff

theorem equals_iff (f g : FV) : f.equals g = true ↔ f = g := by
  unfold FV.equals
  rw [beq_iff_eq]
  simp only [or_zero_iff, xor_zero_iff]
  cases f; cases g
  simp only [FV.mk.injEq, and_assoc]

theorem FV.Norm.ext {m n : Nat} {f g : FV} {v : ZMod p} (hf : f.Norm) (hg : g.Norm) (rf : f.Rp m v) (rg : g.Rp n v) : f = g :=
  hf.tight.ext hg.tight (by rw [hf.val_eq rf, hg.val_eq rg])

theorem FV.Norm.isZero {m : Nat} {f : FV} {v : ZMod p} (hf : f.Norm) (rf : f.Rp m v) : f.isZero = true ↔ v = 0 := by
  rw [isZero_iff]
  constructor
  · rintro rfl; rw [← rf.2]; exact FV.Rp.zero.2
  · rintro rfl; exact hf.ext FV.zero_norm rf FV.Rp.zero

theorem FV.Norm.equals {m n : Nat} {f g : FV} {v u : ZMod p} (hf : f.Norm) (hg : g.Norm) (rf : f.Rp m v) (rg : g.Rp n u) :
    f.equals g = true ↔ v = u := by
  rw [equals_iff]
  constructor
  · rintro rfl; rw [← rf.2, ← rg.2]
  · rintro rfl; exact hf.ext hg rf rg

theorem FV.Norm.isOdd {m : Nat} {f : FV} {v : ZMod p} (hf : f.Norm) (rf : f.Rp m v) : f.isOdd = true ↔ v.val % 2 = 1 := by
  have e : (f.n0 &&& 1).toNat = f.n0.toNat % 2 ^ 1 := u32_mask _ 1 _ rfl
  rw [← hf.val_eq rf]
  unfold FV.isOdd
  rw [beq_iff_eq, ← UInt32.toNat_inj, e]
  have : (1 : UInt32).toNat = 1 := rfl
  unfold FV.val
  omega

/-! ### Inverse and square root -/

theorem FV.Rp.sqE {m : Nat} {f : FV} {v : ZMod p} {e : Nat} (hf : f.Rp m (v ^ e)) (hm : m ≤ 8) : f.square.Rp 1 (v ^ (e * 2)) := by
  have := hf.square hm
  rwa [← pow_mul] at this

theorem FV.Rp.mulE {m n : Nat} {f g : FV} {v : ZMod p} {e d : Nat} (hf : f.Rp m (v ^ e)) (hg : g.Rp n (v ^ d)) (hm : m ≤ 8)
    (hn : n ≤ 8) : (f.mul g).Rp 1 (v ^ (e + d)) := by
  have := hf.mul hg hm hn
  rwa [← pow_add] at this

theorem FV.Rp.cong {f : FV} {v : ZMod p} {a b : Nat} (h : a = b) (hf : f.Rp 1 (v ^ a)) : f.Rp 1 (v ^ b) := h ▸ hf

theorem FV.Rp.sq5E {f : FV} {v : ZMod p} {e : Nat} (hf : f.Rp 1 (v ^ e)) : f.sq5.Rp 1 (v ^ (e * 32)) := by
  have := ((((hf.sqE (by norm_num)).sqE (by norm_num)).sqE (by norm_num)).sqE (by norm_num)).sqE (by norm_num)
  have e : e * 2 * 2 * 2 * 2 * 2 = e * 32 := by ring
  rw [e] at this
  exact this

theorem FV.Rp.stepE {f g : FV} {v : ZMod p} {e d : Nat} (hf : f.Rp 1 (v ^ e)) (hg : g.Rp 1 (v ^ d)) :
    (f.sq5.sq5.mul g).Rp 1 (v ^ (e * 1024 + d)) := by
  have := hf.sq5E.sq5E.mulE hg (by norm_num) (by norm_num)
  have e : e * 32 * 32 + d = e * 1024 + d := by ring
  rw [e] at this
  exact this

theorem FV.Rp.inverse_pow {m : Nat} {f : FV} {v : ZMod p} (hf : f.Rp m v) (hm : m ≤ 8) : f.inverse.Rp 1 (v ^ (p - 2)) := by
  have one : (1 : Nat) ≤ 8 := by norm_num
  have h1 : f.Rp m (v ^ 1) := by rwa [pow_one]
  unfold FV.inverse
  extract_lets a2 a3 a4 a10 a11 a21 a42 a45 a63 a1019 a1023 step f0
  have h2 : a2.Rp 1 (v ^ 2) := h1.sqE hm
  have h3 : a3.Rp 1 (v ^ 3) := h2.mulE h1 one hm
  have h4 : a4.Rp 1 (v ^ 4) := h2.sqE one
  have h10 : a10.Rp 1 (v ^ 10) := (h4.sqE one).mulE h2 one one
  have h11 : a11.Rp 1 (v ^ 11) := h10.mulE h1 one hm
  have h21 : a21.Rp 1 (v ^ 21) := h10.mulE h11 one one
  have h42 : a42.Rp 1 (v ^ 42) := h21.sqE one
  have h45 : a45.Rp 1 (v ^ 45) := h42.mulE h3 one one
  have h63 : a63.Rp 1 (v ^ 63) := h42.mulE h21 one one
  have h1019 : a1019.Rp 1 (v ^ 1019) :=
    FV.Rp.cong (by norm_num) (((((h63.sqE one).sqE one).sqE one).sqE one).mulE h11 one one)
  have h1023 : a1023.Rp 1 (v ^ 1023) := FV.Rp.cong (by norm_num) (h1019.mulE h4 one one)
  have hs : ∀ {g : FV} {e : Nat}, g.Rp 1 (v ^ e) → (step g).Rp 1 (v ^ (e * 1024 + 1023)) := fun h => h.stepE h1023
  clear_value a2 a3 a4 a10 a11 a21 a42 a45 a1019 a1023 step a63
  have g7 := hs (hs (hs (hs (hs (hs (hs h63))))))
  have g14 := hs (hs (hs (hs (hs (hs (hs g7))))))
  have g21 := hs (hs (hs (hs (hs (hs (hs g14))))))
  have g22 := g21.stepE h1019
  have g25 := (hs (hs g22)).stepE h45
  have e : (p - 2) = ((((((((((((((((((((((((63 * 1024 + 1023) * 1024 + 1023) * 1024 + 1023) * 1024 + 1023) * 1024 + 1023) * 1024 + 1023) *
    1024 + 1023) * 1024 + 1023) * 1024 + 1023) * 1024 + 1023) * 1024 + 1023) * 1024 + 1023) * 1024 + 1023) * 1024 + 1023) *
    1024 + 1023) * 1024 + 1023) * 1024 + 1023) * 1024 + 1023) * 1024 + 1023) * 1024 + 1023) * 1024 + 1023) * 1024 + 1019) *
    1024 + 1023) * 1024 + 1023) * 1024 + 45 := by decide +kernel
  exact FV.Rp.cong e.symm g25

/-- Inverse computes the inverse (and 0 of 0). -/
theorem FV.Rp.inverse {m : Nat} {f : FV} {v : ZMod p} (hf : f.Rp m v) (hm : m ≤ 8) : f.inverse.Rp 1 v⁻¹ := by
  have h := hf.inverse_pow hm
  have e : v ^ (p - 2) = v⁻¹ := by
    by_cases hv : v = 0
    · subst hv
      rw [inv_zero, zero_pow]
      have : 2 < p := by norm_num [p]
      omega
    · apply eq_inv_of_mul_eq_one_left
      rw [← pow_succ]
      have : p - 2 + 1 = p - 1 := by norm_num [p]
      rw [this]
      exact ZMod.pow_card_sub_one_eq_one hv
  rwa [e] at h

theorem FV.Rp.sqMulE {m : Nat} {x f : FV} {v : ZMod p} {e : Nat} (hx : x.Rp m v) (hm : m ≤ 8) (hf : f.Rp 1 (v ^ e)) :
    (FV.sqMul x f).Rp 1 (v ^ (e * 2 + 1)) := by
  have h1 : x.Rp m (v ^ 1) := by rwa [pow_one]
  exact (hf.sqE (by norm_num)).mulE h1 (by norm_num) hm

theorem sqrtByte_pw {m : Nat} {x f : FV} {v : ZMod p} {e : Nat} (hx : x.Rp m v) (hm : m ≤ 8) (b : UInt8)
    (hb : b = 0xff ∨ b = 0xbf ∨ b = 0x0c ∨ (b = 0x3f ∧ e = 0)) (hf : f.Rp 1 (v ^ e)) :
    (FV.sqrtByte x b f).Rp 1 (v ^ (e * 256 + b.toNat)) := by
  have one : (1 : Nat) ≤ 8 := by norm_num
  have s : ∀ {f : FV} {e : Nat}, f.Rp 1 (v ^ e) → (FV.sqMul x f).Rp 1 (v ^ (e * 2 + 1)) := fun h => hx.sqMulE hm h
  have conv : ∀ {f : FV} {a b : Nat}, a = b → f.Rp 1 (v ^ a) → f.Rp 1 (v ^ b) := by rintro f a _ rfl h; exact h
  unfold FV.sqrtByte
  rcases hb with rfl | rfl | rfl | ⟨rfl, rfl⟩
  · rw [if_pos rfl]
    refine conv ?_ (s (s (s (s (s (s (s (s hf))))))))
    have : (0xff : UInt8).toNat = 255 := rfl
    omega
  · rw [if_neg (by decide), if_neg (by decide), if_pos rfl]
    refine conv ?_ (s (s (s (s (s (s ((s hf).sqE one)))))))
    have : (0xbf : UInt8).toNat = 191 := rfl
    omega
  · rw [if_neg (by decide), if_neg (by decide), if_neg (by decide)]
    refine conv ?_ (((s (s ((((hf.sqE one).sqE one).sqE one).sqE one))).sqE one).sqE one)
    have : (0x0c : UInt8).toNat = 12 := rfl
    omega
  · rw [if_neg (by decide), if_pos rfl]
    have h1 : x.Rp m (v ^ 1) := by rwa [pow_one]
    refine conv ?_ (s (s (s (s (s (hf.mulE h1 one hm))))))
    have : (0x3f : UInt8).toNat = 63 := rfl
    omega

theorem sqrt_fold {m : Nat} {x : FV} {v : ZMod p} (hx : x.Rp m v) (hm : m ≤ 8) :
    ∀ (bs : Bytes) (f : FV) (e : Nat), (∀ b ∈ bs, b = 0xff ∨ b = 0xbf ∨ b = 0x0c) → f.Rp 1 (v ^ e) →
    (bs.foldl (fun f b => FV.sqrtByte x b f) f).Rp 1 (v ^ (bs.foldl (fun a b => a * 256 + b.toNat) e))
  | [], f, e, _, h => h
  | b :: t, f, e, hb, h => by
    rw [List.foldl_cons, List.foldl_cons]
    refine sqrt_fold hx hm t _ _ (fun b' h' => hb b' (List.mem_cons_of_mem _ h')) ?_
    refine sqrtByte_pw hx hm b ?_ h
    rcases hb b List.mem_cons_self with h | h | h
    · exact Or.inl h
    · exact Or.inr (Or.inl h)
    · exact Or.inr (Or.inr (Or.inl h))

/-- SqrtVal raises to the (P+1)/4. -/
theorem FV.Rp.sqrt {m : Nat} {x : FV} {v : ZMod p} (hx : x.Rp m v) (hm : m ≤ 8) : x.sqrt.Rp 1 (v ^ ((p + 1) / 4)) := by
  have h0 : (FV.setInt 1).Rp 1 (v ^ 0) := by
    have := FV.Rp.setInt 1 (by norm_num)
    rwa [pow_zero, ← Nat.cast_one (R := ZMod p)]
  have h1 := sqrtByte_pw hx hm 0x3f (Or.inr (Or.inr (Or.inr ⟨rfl, rfl⟩))) h0
  have h2 := sqrt_fold hx hm fieldQBytes.tail _ _ (by decide) h1
  have e : (fieldQBytes.tail.foldl (fun a b => a * 256 + b.toNat) (0 * 256 + (0x3f : UInt8).toNat)) = (p + 1) / 4 := by
    decide +kernel
  have e2 : fieldQBytes = 0x3f :: fieldQBytes.tail := rfl
  unfold FV.sqrt
  rw [e2, List.foldl_cons]
  exact FV.Rp.cong e h2

end Tss.Secp
