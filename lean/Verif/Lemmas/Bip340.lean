import Verif.Model.Bip340
import Verif.Lemmas.Go
import Mathlib.Algebra.Module.ZMod
/-
Points, scalars and encodings of btcec/v2.
-/
namespace Tss.Bip340
open Tss
open Tss.Secp (E p ord G pt point_cases pt_neg pt_inj pt_congr neg_on y_ne_zero same_x val_parity ord_smul ord_prime addOrderOf_G
  exists_mul p_prime pt_ne_zero G_ne_zero)

instance : Fact (Nat.Prime ord) := ⟨ord_prime⟩

noncomputable instance : Module (ZMod ord) E.Point := AddCommGroup.zmodModule ord_smul

theorem mul_eq (k : Sc) (P : Pt) : mul k P = k • P := by
  unfold mul
  conv_rhs => rw [← ZMod.natCast_zmod_val k]
  rw [Nat.cast_smul_eq_nsmul]

theorem mulG_eq (k : Sc) : mulG k = k • G := mul_eq k G

theorem nat_smul (n : Nat) (P : Pt) : ((n : Sc)) • P = n • P := Nat.cast_smul_eq_nsmul _ _ _

theorem exists_smul (P : Pt) : ∃ k : Sc, P = k • G := by
  obtain ⟨k, -, e⟩ := exists_mul P
  exact ⟨(k : Sc), by rw [nat_smul]; exact e⟩

theorem smul_eq_zero' {k : Sc} {P : Pt} : k • P = 0 ↔ k = 0 ∨ P = 0 := smul_eq_zero

theorem smulG_inj {a b : Sc} (h : a • G = b • G) : a = b := by
  have : (a - b) • G = 0 := by rw [sub_smul, h, sub_self]
  rcases smul_eq_zero.1 this with h | h
  · exact sub_eq_zero.1 h
  · exact absurd h G_ne_zero

/-! ### Coordinates -/

theorem xOf_zero : xOf (0 : Pt) = 0 := rfl
theorem yOf_zero : yOf (0 : Pt) = 0 := rfl
theorem xOf_pt {x y : ZMod p} (h : y ^ 2 = x ^ 3 + 7) : xOf (pt x y h) = x := rfl
theorem yOf_pt {x y : ZMod p} (h : y ^ 2 = x ^ 3 + 7) : yOf (pt x y h) = y := rfl

theorem xOf_neg (P : Pt) : xOf (-P) = xOf P := by
  rcases point_cases P with rfl | ⟨x, y, h, rfl⟩
  · rw [neg_zero]
  · rw [pt_neg, xOf_pt, xOf_pt]

theorem yOf_neg (P : Pt) : yOf (-P) = -yOf P := by
  rcases point_cases P with rfl | ⟨x, y, h, rfl⟩
  · rw [neg_zero, yOf_zero, neg_zero]
  · rw [pt_neg, yOf_pt, yOf_pt]

theorem oddY_zero : oddY (0 : Pt) = false := by
  unfold oddY; rw [yOf_zero, ZMod.val_zero]; rfl

theorem oddY_neg {P : Pt} (hP : P ≠ 0) : oddY (-P) = !oddY P := by
  rcases point_cases P with rfl | ⟨x, y, h, rfl⟩
  · exact absurd rfl hP
  · unfold oddY
    rw [yOf_neg, yOf_pt]
    have := val_parity (y_ne_zero h)
    have h1 := Nat.mod_two_eq_zero_or_one y.val
    have h2 := Nat.mod_two_eq_zero_or_one (-y).val
    rcases h1 with h1 | h1 <;> rcases h2 with h2 | h2 <;> simp [h1, h2] <;> omega

/-- The coordinate x and the parity of y determine a point that is not the neutral element. -/
theorem ext_of {P Q : Pt} (hP : P ≠ 0) (hQ : Q ≠ 0) (hx : xOf P = xOf Q) (ho : oddY P = oddY Q) : P = Q := by
  rcases point_cases P with rfl | ⟨x, y, h, rfl⟩
  · exact absurd rfl hP
  rcases point_cases Q with rfl | ⟨x', y', h', rfl⟩
  · exact absurd rfl hQ
  rw [xOf_pt, xOf_pt] at hx
  subst hx
  refine pt_congr rfl (same_x h h' ?_)
  unfold oddY at ho
  rw [yOf_pt, yOf_pt] at ho
  have h1 := Nat.mod_two_eq_zero_or_one y.val
  have h2 := Nat.mod_two_eq_zero_or_one y'.val
  rcases h1 with h1 | h1 <;> rcases h2 with h2 | h2 <;> simp_all

/-- The point with the same x and even y. -/
def even (P : Pt) : Pt := if oddY P then -P else P

theorem even_ne {P : Pt} (hP : P ≠ 0) : even P ≠ 0 := by
  unfold even; split
  · exact neg_ne_zero.2 hP
  · exact hP

theorem oddY_even (P : Pt) : oddY (even P) = false := by
  by_cases hP : P = 0
  · subst hP; unfold even; rw [oddY_zero]; exact oddY_zero
  · unfold even
    cases h : oddY P
    · simp [h]
    · simp [oddY_neg hP, h]

theorem xOf_even (P : Pt) : xOf (even P) = xOf P := by
  unfold even; split
  · exact xOf_neg P
  · rfl

theorem even_of_even {P : Pt} (h : oddY P = false) : even P = P := by unfold even; rw [h]; rfl

theorem even_neg (P : Pt) : even (-P) = even P := by
  by_cases hP : P = 0
  · subst hP; rw [neg_zero]
  · unfold even
    rw [oddY_neg hP]
    cases oddY P <;> simp

/-- The sign that `even` applies. -/
def sgn (P : Pt) : Sc := if oddY P then -1 else 1

theorem sgn_smul (P : Pt) : sgn P • P = even P := by
  unfold sgn even; split
  · rw [neg_smul, one_smul]
  · rw [one_smul]

theorem sgn_sq (P : Pt) : sgn P * sgn P = 1 := by unfold sgn; split <;> simp

theorem sgn_even (P : Pt) : sgn P • even P = P := by rw [← sgn_smul, smul_smul, sgn_sq, one_smul]

/-! ### Bytes -/

theorem pow256 : (256 : Nat) ^ 32 = 2 ^ 256 := by norm_num

theorem p_lt : p < 256 ^ 32 := by decide +kernel
theorem ord_lt : ord < 256 ^ 32 := by decide +kernel

theorem putBytes_length (n : Nat) : (putBytes n).length = 32 := beFixed_length _ _

theorem beNat_putBytes {n : Nat} (h : n < 256 ^ 32) : beNat (putBytes n) = n := by
  unfold putBytes; rw [beNat_beFixed, Nat.mod_eq_of_lt h]

theorem putBytes_beNat {b : Bytes} (h : b.length = 32) : putBytes (beNat b) = b := by
  unfold putBytes; rw [← h]; exact beFixed_beNat b

theorem val_lt_p (x : ZMod p) : x.val < 256 ^ 32 := lt_trans (ZMod.val_lt x) p_lt
theorem val_lt_ord (x : Sc) : x.val < 256 ^ 32 := lt_trans (ZMod.val_lt x) ord_lt

theorem xb_length (P : Pt) : (xb P).length = 32 := putBytes_length _

theorem xb_inj {P Q : Pt} (h : xb P = xb Q) : xOf P = xOf Q := by
  have := congrArg beNat h
  unfold xb at this
  rw [beNat_putBytes (val_lt_p _), beNat_putBytes (val_lt_p _)] at this
  exact ZMod.val_injective _ this

theorem xb_even (P : Pt) : xb (even P) = xb P := by unfold xb; rw [xOf_even]

theorem serialize_eq (P : Pt) : serializePubKey P = xb P := by unfold serializePubKey compressed; rfl

/-- Two keys with the same x-only encoding are equal or opposite. -/
theorem even_eq_of_xb {P Q : Pt} (hP : P ≠ 0) (hQ : Q ≠ 0) (h : xb P = xb Q) : even P = even Q :=
  ext_of (even_ne hP) (even_ne hQ) (by rw [xOf_even, xOf_even]; exact xb_inj h) (by rw [oddY_even, oddY_even])

theorem compressed_length (P : Pt) : (compressed P).length = 33 := by unfold compressed; simp [xb_length]

theorem compressed_inj {P Q : Pt} (hP : P ≠ 0) (hQ : Q ≠ 0) (h : compressed P = compressed Q) : P = Q := by
  unfold compressed at h
  injection h with h1 h2
  refine ext_of hP hQ (xb_inj h2) ?_
  revert h1
  cases oddY P <;> cases oddY Q <;> simp

/-! ### Decompression -/

theorem p_mod4 : p % 4 = 3 := by decide +kernel

theorem sqrt_spec {a y : ZMod p} (h : y ^ 2 = a) : a ^ ((p + 1) / 4) = y ∨ a ^ ((p + 1) / 4) = -y := by
  have h4 := p_mod4
  have hp := p_prime.two_le
  have : (a ^ ((p + 1) / 4)) ^ 2 = y ^ 2 := by
    rw [← h, ← pow_mul, ← pow_mul]
    have e : 2 * ((p + 1) / 4 * 2) = p + 1 := by omega
    rw [e, pow_succ, ZMod.pow_card, ← pow_two]
  exact sq_eq_sq_iff_eq_or_eq_neg.1 this

theorem decompressY_some {x : ZMod p} {odd : Bool} {P : Pt} (h : decompressY x odd = some P) :
    P ≠ 0 ∧ xOf P = x ∧ oddY P = odd := by
  unfold decompressY at h
  simp only at h
  generalize hr : (x ^ 3 + 7) ^ ((p + 1) / 4) = r at h
  generalize hy : (if ((r.val % 2 == 1) == odd) = true then r else -r) = y at h
  split at h
  · rename_i hc
    injection h with h
    subst h
    refine ⟨pt_ne_zero _, rfl, ?_⟩
    unfold oddY
    rw [yOf_pt]
    have hy0 := y_ne_zero hc
    by_cases hp : ((r.val % 2 == 1) == odd) = true
    · rw [if_pos hp] at hy; subst hy; simpa using hp
    · rw [if_neg hp] at hy
      have hr0 : r ≠ 0 := by rintro rfl; rw [neg_zero] at hy; exact hy0 hy.symm
      have := val_parity hr0
      rw [hy] at this
      have h1 := Nat.mod_two_eq_zero_or_one r.val
      have h2 := Nat.mod_two_eq_zero_or_one y.val
      cases odd <;> rcases h1 with h1 | h1 <;> rcases h2 with h2 | h2 <;> simp [h1, h2] at hp this ⊢
  · cases h

theorem decompressY_of {P : Pt} (hP : P ≠ 0) : decompressY (xOf P) (oddY P) = some P := by
  have key : ∃ Q, decompressY (xOf P) (oddY P) = some Q := by
    rcases point_cases P with rfl | ⟨x, y, h, rfl⟩
    · exact absurd rfl hP
    · rw [xOf_pt]
      generalize oddY (pt x y h) = o
      unfold decompressY
      simp only
      have hs := sqrt_spec h
      generalize (x ^ 3 + 7) ^ ((p + 1) / 4) = r at hs
      have : (if ((r.val % 2 == 1) == o) = true then r else -r) ^ 2 = x ^ 3 + 7 := by
        rcases hs with rfl | rfl <;> split <;> simp [h]
      rw [dif_pos this]
      exact ⟨_, rfl⟩
  obtain ⟨Q, hQ⟩ := key
  obtain ⟨h0, hx, ho⟩ := decompressY_some hQ
  rw [hQ, ext_of h0 hP hx ho]

/-- `ParsePubKey` of a compressed key is exactly the inverse of `SerializeCompressed`. -/
theorem parsePubKey_iff (b : Bytes) (P : Pt) : parsePubKey b = .ok P ↔ P ≠ 0 ∧ b = compressed P := by
  constructor
  · intro h
    unfold parsePubKey at h
    split at h
    · cases h
    · rename_i f rest
      split at h
      · cases h
      · rename_i hl
        push Not at hl
        split at h
        · cases h
        · rename_i hf
          split at h
          · cases h
          · rename_i hx
            push Not at hx
            split at h
            · cases h
            · rename_i Q hQ
              injection h with h
              subst h
              obtain ⟨h0, hxq, ho⟩ := decompressY_some hQ
              refine ⟨h0, ?_⟩
              have hff : (if (f == 3) = true then (3 : UInt8) else 2) = f := by
                by_cases h3 : f = 3
                · subst h3; rfl
                · have h2 : f = 2 := by
                    by_contra h2; exact hf ⟨h2, h3⟩
                  subst h2; rfl
              unfold compressed xb
              rw [hxq, ZMod.val_natCast, Nat.mod_eq_of_lt hx, putBytes_beNat hl, ho, hff]
  · rintro ⟨hP, rfl⟩
    have hb : beNat (xb P) = (xOf P).val := beNat_putBytes (val_lt_p _)
    have hf : ¬((if oddY P then (3 : UInt8) else 2) ≠ 2 ∧ (if oddY P then (3 : UInt8) else 2) ≠ 3) := by
      cases oddY P <;> simp
    have hfo : ((if oddY P then (3 : UInt8) else 2) == 3) = oddY P := by cases oddY P <;> rfl
    unfold parsePubKey compressed
    simp only
    rw [if_neg (by rw [xb_length]; simp), if_neg hf, if_neg (by rw [hb]; exact not_le.2 (ZMod.val_lt _)), hb, hfo,
      ZMod.natCast_zmod_val, decompressY_of hP]

/-- The x-only parser is exactly the inverse of `SerializePubKey` on the keys with even y. -/
theorem parseXOnly_iff (b : Bytes) (P : Pt) : parseXOnly b = .ok P ↔ P ≠ 0 ∧ oddY P = false ∧ b = xb P := by
  unfold parseXOnly
  split
  · rename_i hl
    constructor
    · intro h; cases h
    · rintro ⟨-, -, rfl⟩; exact absurd (xb_length P) hl
  · rw [parsePubKey_iff]
    unfold compressed
    constructor
    · rintro ⟨h0, h⟩
      injection h with h1 h2
      refine ⟨h0, ?_, h2⟩
      revert h1
      cases oddY P <;> simp
    · rintro ⟨h0, h1, h2⟩
      refine ⟨h0, ?_⟩
      rw [h1, h2]; rfl

theorem parseXOnly_xb {P : Pt} (hP : P ≠ 0) : parseXOnly (xb P) = .ok (even P) :=
  (parseXOnly_iff _ _).2 ⟨even_ne hP, oddY_even P, (xb_even P).symm⟩

theorem parseJacobian_compressed {P : Pt} (hP : P ≠ 0) : parseJacobian (compressed P) = .ok P := by
  have := (parsePubKey_iff (compressed P) P).2 ⟨hP, rfl⟩
  unfold parseJacobian
  rw [this]
  unfold compressed
  simp only
  rw [if_neg (by rw [xb_length]; simp), if_neg (by cases oddY P <;> simp)]

theorem xy_zero {P : Pt} : (xOf P = 0 ∧ yOf P = 0) ↔ P = 0 := by
  constructor
  · rintro ⟨-, h⟩
    rcases point_cases P with rfl | ⟨x, y, hxy, rfl⟩
    · rfl
    · rw [yOf_pt] at h; exact absurd h (y_ne_zero hxy)
  · rintro rfl; exact ⟨rfl, rfl⟩

theorem jacobianToBytes_length (P : Pt) : (jacobianToBytes P).length = 33 := by
  unfold jacobianToBytes
  split
  · simp
  · exact compressed_length P

/-- The encoding of nonce points and its parser. -/
theorem parseJacobian_toBytes (P : Pt) : parseJacobian (jacobianToBytes P) = .ok P := by
  unfold jacobianToBytes
  split
  · rename_i h
    rw [xy_zero] at h; subst h
    rfl
  · rename_i h
    rw [xy_zero] at h
    exact parseJacobian_compressed h

/-- What `ParseJacobian` accepts: an encoded point, or any 33 bytes that begin with 0, for the neutral element. -/
theorem parseJacobian_iff (b : Bytes) (P : Pt) : parseJacobian b = .ok P ↔
    (P ≠ 0 ∧ b = compressed P) ∨ (P = 0 ∧ b.length = 33 ∧ b.head? = some 0) := by
  unfold parseJacobian
  split
  · constructor
    · intro h; cases h
    · rintro (⟨-, h⟩ | ⟨-, h, -⟩)
      · have := congrArg List.length h; rw [compressed_length] at this; simp at this
      · simp at h
  · rename_i f rest
    split
    · rename_i hl
      constructor
      · intro h; cases h
      · rintro (⟨-, h⟩ | ⟨-, h, -⟩)
        · have := congrArg List.length h; rw [compressed_length] at this; simp at this; exact absurd this hl
        · simp at h; exact absurd h hl
    · rename_i hl
      push Not at hl
      split
      · rename_i hf
        subst hf
        constructor
        · intro h; injection h with h; subst h; right; simp [hl]
        · rintro (⟨-, h⟩ | ⟨h, -, -⟩)
          · unfold compressed at h; injection h with h1 _
            exfalso; revert h1; cases oddY P <;> simp
          · rw [h]
      · rename_i hf
        rw [parsePubKey_iff]
        constructor
        · exact Or.inl
        · rintro (h | ⟨-, -, h⟩)
          · exact h
          · simp at h; exact absurd h hf

theorem setBytes_val {b : Bytes} (h : (setBytes b).2 = false) : (setBytes b).1.val = beNat b := by
  unfold setBytes at h ⊢
  simp only [decide_eq_false_iff_not, not_le] at h
  simp only
  rw [ZMod.val_natCast, Nat.mod_eq_of_lt h]

end Tss.Bip340
