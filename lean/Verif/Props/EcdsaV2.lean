import Verif.Model.EcdsaV2
import Verif.Props.Der
import Verif.Lemmas.Bip340
/-
C100: the ECDSA signature parsers of btcec/v2 agree with those of btcec/v1.
-/
namespace Tss.EcdsaV2
open Tss Tss.Bip340
open Tss.Secp (SigErr byteAt sliceOf checkPad N ord ord_N sigSerialize)

theorem stripLead_eq : ∀ b : Bytes, stripLead b = stripZeros b
  | [] => rfl
  | x :: t => by unfold stripLead stripZeros; rw [stripLead_eq t]

theorem scalarOf_eq (b : Bytes) (e1 e2 : SigErr) : scalarOf b e1 e2 = (if (stripLead b).length > 32 then .err e1 else
    if (setBytes (stripLead b)).2 then .err e1 else if (setBytes (stripLead b)).1 = 0 then .err e2 else .ok (setBytes (stripLead b)).1) := by
  unfold scalarOf setByteSlice
  simp only
  by_cases h : (stripLead b).length > 32
  · rw [if_pos h, if_pos h]
  · rw [if_neg h, if_neg h, List.take_of_length_le (not_lt.mp h)]

theorem scalarOf_ok (b : Bytes) (e1 e2 : SigErr) (r : Sc) :
    scalarOf b e1 e2 = .ok r ↔ 1 ≤ beNat b ∧ beNat b < ord ∧ r.val = beNat b := by
  rw [scalarOf_eq, stripLead_eq, Secp.ite_err_ok, Secp.ite_err_ok, Secp.ite_err_ok]
  unfold setBytes
  simp only [decide_eq_true_eq, beNat_stripZeros, not_le]
  constructor
  · rintro ⟨-, h1, h2, h3⟩
    injection h3 with h3
    subst h3
    refine ⟨?_, h1, ZMod.val_natCast_of_lt h1⟩
    rcases Nat.eq_zero_or_pos (beNat b) with h0 | h0
    · rw [h0] at h2; exact absurd Nat.cast_zero h2
    · exact h0
  · rintro ⟨h0, h1, h2⟩
    have hr : ((beNat b : Nat) : Sc) = r := by rw [← h2]; exact ZMod.natCast_zmod_val r
    refine ⟨?_, h1, ?_, by rw [hr]⟩
    · rw [not_lt, ← natBE_beNat]
      exact natBE_length_le _ _ (lt_trans h1 (by unfold ord; norm_num))
    · intro hz
      rw [hr] at hz
      rw [hz, ZMod.val_zero] at h2
      omega

/-- **C100.** The parsers of v2 accept exactly what those of v1 accept with the order of the curve, and return the same numbers, whatever
the bytes and the strictness. -/
theorem C100_same_as_v1 (b : Bytes) (der : Bool) (r s : Sc) :
    parseSig b der = .ok (r, s) ↔ Secp.parseSig b N der = .ok ((r.val : Int), (s.val : Int)) := by
  unfold parseSig Secp.parseSig
  simp only [Secp.ite_err_ok, Secp.rbind_ok, Secp.byteAt_ok, Secp.sliceOf_ok, Secp.checkPad_ok, Secp.pure_ok, scalarOf_ok]
  rw [ord_N]
  constructor
  · rintro ⟨h8, x0, e0, hx0, x1, e1, htot, sig, hsig, x2, e2, hx2, x3, e3, hr, R, hR, u, hcR, r', ⟨r1, r2, r3⟩, x4, e4, hx4, x5, e5, hs,
      S, hS, u', hcS, s', ⟨s1, s2, s3⟩, hfin, hrs⟩
    injection hrs with a1 a2
    subst a1 a2
    refine ⟨h8, x0, e0, hx0, x1, e1, htot, sig, hsig, x2, e2, hx2, x3, e3, hr, R, hR, u, hcR, x4, e4, hx4, x5, e5, hs, S, hS, u', hcS, hfin,
      ?_, ?_, ?_, ?_, ?_⟩
    · omega
    · omega
    · omega
    · omega
    · rw [r3, s3]
  · rintro ⟨h8, x0, e0, hx0, x1, e1, htot, sig, hsig, x2, e2, hx2, x3, e3, hr, R, hR, u, hcR, x4, e4, hx4, x5, e5, hs,
      S, hS, u', hcS, hfin, r1, s1, r2, s2, hrs⟩
    injection hrs with a1 a2
    refine ⟨h8, x0, e0, hx0, x1, e1, htot, sig, hsig, x2, e2, hx2, x3, e3, hr, R, hR, u, hcR, r, ⟨?_, ?_, ?_⟩, x4, e4, hx4, x5, e5, hs,
      S, hS, u', hcS, s, ⟨?_, ?_, ?_⟩, hfin, rfl⟩ <;> omega

theorem scalarOf_panic (b : Bytes) (e1 e2 : SigErr) : scalarOf b e1 e2 ≠ .panic := by
  unfold scalarOf
  simp only
  split
  · intro h; cases h
  split
  · intro h; cases h
  split
  · intro h; cases h
  · intro h; cases h

/-- **C100.** Nor do they panic. -/
theorem C100_never_panics (b : Bytes) (der : Bool) : parseSig b der ≠ .panic := by
  unfold parseSig
  intro h
  simp only [Secp.ite_err_panic, Secp.rbind_panic, Secp.byteAt_panic, Secp.byteAt_ok, Secp.sliceOf_panic, Secp.sliceOf_ok, Secp.pure_panic,
    Secp.checkPad_ok] at h
  obtain ⟨h8, h | ⟨x0, e0, hx0, h⟩⟩ := h
  · omega
  rcases h with h | ⟨x1, e1, htot, h⟩
  · omega
  rw [not_or] at htot
  rcases h with h | ⟨sig, ⟨-, rfl⟩, h⟩
  · exact h ⟨by omega, by omega⟩
  rw [List.drop_zero] at h
  have hlen : (b.take (x1 + 2).toNat).length = (x1 + 2).toNat := by rw [List.length_take]; omega
  generalize b.take (x1 + 2).toNat = g at h hlen
  rcases h with h | ⟨x2, e2, hx2, h⟩
  · omega
  rcases h with h | ⟨x3, e3, hr, h⟩
  · omega
  rw [not_or] at hr
  rcases h with h | ⟨R, ⟨⟨-, hRl⟩, hR⟩, h⟩
  · exact h ⟨by omega, by omega⟩
  have lR : R.length = x3.toNat := by rw [hR, List.length_drop, List.length_take]; omega
  rcases h with h | ⟨-, hcR, h⟩
  · exact Secp.checkPad_panic (by rintro rfl; simp at lR; omega) h
  rcases h with h | ⟨r, hr', h⟩
  · exact scalarOf_panic _ _ _ h
  rcases h with h | ⟨x4, e4, hx4, h⟩
  · omega
  rcases h with h | ⟨x5, e5, hs, h⟩
  · omega
  rw [not_or] at hs
  rcases h with h | ⟨S, ⟨⟨-, hSl⟩, hS⟩, h⟩
  · exact h ⟨by omega, by omega⟩
  have lS : S.length = x5.toNat := by rw [hS, List.length_drop, List.length_take]; omega
  rcases h with h | ⟨-, hcS, h⟩
  · exact Secp.checkPad_panic (by rintro rfl; simp at lS; omega) h
  rcases h with h | ⟨s, hs', h⟩
  · exact scalarOf_panic _ _ _ h
  exact h.2

/-- **C100.** `ParseDERSignature` accepts exactly the DER encodings, of at most 255 bytes, of two non-zero scalars, followed by anything. -/
theorem C100_der_iff (b : Bytes) (r s : Sc) : parseDERSignature b = .ok (r, s) ↔ ∃ R S t, b = Secp.spec.seq2 R S ++ t ∧ Secp.spec.IsDerInt R r.val ∧
    Secp.spec.IsDerInt S s.val ∧ (Secp.spec.seq2 R S).length ≤ 255 ∧ r ≠ 0 ∧ s ≠ 0 := by
  have hz : ∀ x : Sc, (1 ≤ (x.val : Int) ∧ (x.val : Int) < N) ↔ x ≠ 0 := by
    intro x
    have hlt : x.val < ord := ZMod.val_lt x
    have h0 : x.val = 0 ↔ x = 0 := ZMod.val_eq_zero x
    rw [ord_N, ne_eq, ← h0]
    omega
  unfold parseDERSignature
  rw [C100_same_as_v1, Secp.C85_der_iff]
  simp only [Int.toNat_natCast]
  constructor
  · rintro ⟨R, S, t, h1, h2, h3, h4, h5, h6, h7, h8⟩
    exact ⟨R, S, t, h1, h2, h3, h4, (hz r).1 ⟨h5, h6⟩, (hz s).1 ⟨h7, h8⟩⟩
  · rintro ⟨R, S, t, h1, h2, h3, h4, h5, h6⟩
    exact ⟨R, S, t, h1, h2, h3, h4, ((hz r).2 h5).1, ((hz r).2 h5).2, ((hz s).2 h6).1, ((hz s).2 h6).2⟩

/-- **C100.** What Serialize of v1 writes for r, s in [1, N) is read back by v2, with the lower of s and N - s. -/
theorem C100_reads_v1 (r s : Int) (hr : 1 ≤ r ∧ r < N) (hs : 1 ≤ s ∧ s < N) (der : Bool) (t : Bytes) :
    ∃ r' s' : Sc, parseSig (sigSerialize r s ++ t) der = .ok (r', s') ∧ (r'.val : Int) = r ∧ (s'.val : Int) = min s (N - s) := by
  have h := (Secp.C85_serialize r s hr hs).2 t der
  have hm : 1 ≤ min s (N - s) ∧ min s (N - s) < N := by
    constructor
    · rw [le_min_iff]; omega
    · exact lt_of_le_of_lt (min_le_left _ _) hs.2
  rw [ord_N] at hr hm
  have e : ∀ x : Int, 1 ≤ x ∧ x < (ord : Int) → (((x.toNat : Sc)).val : Int) = x := by
    intro x hx
    rw [ZMod.val_natCast_of_lt (by omega)]
    omega
  refine ⟨(r.toNat : Sc), ((min s (N - s)).toNat : Sc), ?_, e _ hr, ?_⟩
  · rw [C100_same_as_v1, h, e _ hr, e _ (by rw [ord_N]; exact hm)]
  · exact e _ (by rw [ord_N]; exact hm)

/-- **C100, example.** The DER encoding of (128, 1) with two bytes after it; with the sign bit of r set BER takes it and DER does not. -/
theorem C100_example :
    parseSig [0x30, 0x07, 0x02, 0x02, 0x00, 0x80, 0x02, 0x01, 0x01, 0xff, 0xff] true = .ok (128, 1) ∧
    parseSig [0x30, 0x06, 0x02, 0x01, 0x80, 0x02, 0x01, 0x01] true = .err .rNegative ∧
    parseSig [0x30, 0x06, 0x02, 0x01, 0x80, 0x02, 0x01, 0x01] false = .ok (128, 1) ∧
    parseSig [0x30, 0x06, 0x02, 0x01, 0x00, 0x02, 0x01, 0x01] true = .err .rSign := by
  have v1 : ((1 : Sc)).val = 1 := by
    have h : ((1 : Nat) : Sc).val = 1 := ZMod.val_natCast_of_lt (by decide +kernel)
    rwa [Nat.cast_one] at h
  have v128 : ((128 : Sc)).val = 128 := ZMod.val_natCast_of_lt (a := 128) (by decide +kernel)
  refine ⟨?_, by decide +kernel, ?_, by decide +kernel⟩
  · rw [C100_same_as_v1, v1, v128]; exact Secp.C85_example.2.1
  · rw [C100_same_as_v1, v1, v128]; exact Secp.C85_example.2.2.2

end Tss.EcdsaV2
