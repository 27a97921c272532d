import Verif.Props.EC
import Verif.Props.Wire
import Verif.Props.Common
/-
C27: which byte strings are gob encodings of points. C63: lengths and tags of more than 64 bits. C06: nil and zero.
-/
namespace Tss.ECPoint
open Tss

theorem le32_leNat (b : Bytes) (h : b.length = 4) : le32 (leNat b) = b := by
  have := leFixed_leNat b
  rw [h] at this
  exact this

/-- A chunk is read exactly if it is there in full, with something at all after the length. -/
theorem readChunk_iff (buf x rest : Bytes) : readChunk buf = some (x, rest) ↔
    x.length < 2 ^ 32 ∧ buf = le32 x.length ++ x ++ rest ∧ x ++ rest ≠ [] := by
  constructor
  · intro h
    unfold readChunk at h
    split at h
    · cases h
    · next h4 =>
      simp only at h
      split at h
      · cases h
      · next h0 =>
        split at h
        · cases h
        · next hn =>
          simp only [Option.some.injEq, Prod.mk.injEq] at h
          obtain ⟨h1, h2⟩ := h
          have h44 : (buf.take 4).length = 4 := by rw [List.length_take]; omega
          have hx : x.length = leNat (buf.take 4) := by rw [← h1, List.length_take]; omega
          have hr : x ++ rest = buf.drop 4 := by rw [← h1, ← h2, List.take_append_drop]
          refine ⟨?_, ?_, ?_⟩
          · rw [hx]
            have := leNat_lt (buf.take 4)
            rw [h44] at this
            exact lt_of_lt_of_eq this (by norm_num)
          · rw [hx, le32_leNat _ h44, List.append_assoc, hr, List.take_append_drop]
          · rw [hr]
            intro e
            exact h0 (by rw [e]; rfl)
  · rintro ⟨h1, rfl, h3⟩
    have hlen : (le32 x.length).length = 4 := by simp [le32]
    have ht : (le32 x.length ++ x ++ rest).take 4 = le32 x.length := by
      rw [List.append_assoc, List.take_append_of_le_length (by omega), List.take_of_length_le (by omega)]
    have hd : (le32 x.length ++ x ++ rest).drop 4 = x ++ rest := by
      rw [List.append_assoc, List.drop_append_of_le_length (by omega), List.drop_of_length_le (by omega)]; rfl
    have hv : leNat (le32 x.length) = x.length := by
      rw [le32, leNat_leFixed, Nat.mod_eq_of_lt]; simpa using h1
    unfold readChunk
    rw [ht, hd, hv]
    rw [if_neg (by simp only [List.length_append]; omega)]
    simp only
    rw [if_neg (by rw [List.length_eq_zero_iff]; exact h3), if_neg (by simp)]
    simp

/-- C27: exactly which bytes are read as which point: two chunks, each in full after its four-byte length, that are encoded integers (an
empty chunk is 0) and make up a point of the global curve; what follows does not matter. (If the second chunk is empty something has to follow.) -/
theorem C27_gob_accepts_iff (c : Curve) (buf : Bytes) (p : ECPoint) : gobDecode c buf = some p ↔
    c.On p ∧ ∃ x y rest : Bytes, x.length < 2 ^ 32 ∧ y.length < 2 ^ 32 ∧ buf = le32 x.length ++ x ++ (le32 y.length ++ y ++ rest) ∧
      y ++ rest ≠ [] ∧ bigGobDecode x = some p.x ∧ bigGobDecode y = some p.y := by
  constructor
  · intro h
    refine ⟨C27_gob_decode_on_curve c buf p h, ?_⟩
    unfold gobDecode at h
    cases h1 : readChunk buf with
    | none => simp [h1] at h
    | some a =>
      cases h2 : readChunk a.2 with
      | none => simp [h1, h2] at h
      | some b =>
        cases h3 : bigGobDecode a.1 with
        | none => simp [h1, h2, h3] at h
        | some X =>
          cases h4 : bigGobDecode b.1 with
          | none => simp [h1, h2, h3, h4] at h
          | some Y =>
            simp only [h1, h2, h3, h4] at h
            split at h
            · simp only [Option.some.injEq] at h
              subst h
              obtain ⟨a1, a2, -⟩ := (readChunk_iff buf a.1 a.2).1 h1
              obtain ⟨b1, b2, b3⟩ := (readChunk_iff a.2 b.1 b.2).1 h2
              exact ⟨a.1, b.1, b.2, a1, b1, by rw [← b2]; exact a2, b3, h3, h4⟩
            · cases h
  · rintro ⟨hon, x, y, rest, h1, h2, rfl, h4, h5, h6⟩
    have e1 := (readChunk_iff (le32 x.length ++ x ++ (le32 y.length ++ y ++ rest)) x (le32 y.length ++ y ++ rest)).2 ⟨h1, rfl, by
      intro e
      have := congrArg List.length e
      simp [le32] at this⟩
    have e2 := (readChunk_iff (le32 y.length ++ y ++ rest) y rest).2 ⟨h2, rfl, h4⟩
    unfold gobDecode
    simp only [e1, e2, h5, h6]
    have hp' : c.isOnCurve p.x p.y = true := hon
    rw [if_pos hp']

/-- C27: an encoding cut short anywhere is refused, whatever the global curve. -/
theorem C27_gob_cut_short (c : Curve) (p : ECPoint) (hx : (intBytes p.x).length + 1 < 2 ^ 32) (hy : (intBytes p.y).length + 1 < 2 ^ 32)
    (k : Nat) (hk : k < (gobEncode p).length) : gobDecode c ((gobEncode p).take k) = none := by
  cases h : gobDecode c ((gobEncode p).take k) with
  | none => rfl
  | some q =>
    obtain ⟨-, x, y, rest, h1, h2, h3, h4, -, -⟩ := (C27_gob_accepts_iff c _ q).1 h
    exfalso
    have hxl : (bigGobEncode p.x).length = (intBytes p.x).length + 1 := by simp [bigGobEncode]
    have hyl : (bigGobEncode p.y).length = (intBytes p.y).length + 1 := by simp [bigGobEncode]
    have hfull : gobEncode p = le32 x.length ++ x ++ (le32 y.length ++ y ++ (rest ++ (gobEncode p).drop k)) := by
      conv_lhs => rw [← List.take_append_drop k (gobEncode p), h3]
      simp only [List.append_assoc]
    have r1 := (readChunk_iff (gobEncode p) x _).2 ⟨h1, hfull, by
      intro e
      have := congrArg List.length e
      simp [le32] at this⟩
    have r2 : readChunk (gobEncode p) = some (bigGobEncode p.x, le32 (bigGobEncode p.y).length ++ bigGobEncode p.y) := by
      unfold gobEncode
      exact readChunk_cons _ _ (by simp [bigGobEncode]) (by omega)
    rw [r1] at r2
    simp only [Option.some.injEq, Prod.mk.injEq] at r2
    obtain ⟨e1, e2⟩ := r2
    have s1 := (readChunk_iff _ y (rest ++ (gobEncode p).drop k)).2 ⟨h2, rfl, by
      intro e
      rw [List.append_eq_nil_iff, List.append_eq_nil_iff] at e
      exact h4 (by rw [e.1, e.2.1]; rfl)⟩
    have s2 := readChunk_cons (bigGobEncode p.y) [] (by simp [bigGobEncode]) (by omega)
    rw [List.append_nil, ← e2, s1] at s2
    simp only [Option.some.injEq, Prod.mk.injEq, List.append_eq_nil_iff] at s2
    have := congrArg List.length s2.2.2
    rw [List.length_drop, List.length_nil] at this
    omega

/-- Non-vacuity: a point of the toy curve, its encoding, and the encoding without its last byte. -/
theorem C27_gob_case : gobDecode toyCurve (gobEncode ⟨3, 5⟩) = some ⟨3, 5⟩ ∧ (gobEncode ⟨3, 5⟩).length = 12 ∧
    gobDecode toyCurve ((gobEncode ⟨3, 5⟩).take 11) = none := by decide +kernel

end Tss.ECPoint

namespace Tss.Wire
open Tss

theorem varintAux_range : ∀ (b : Bytes) (i acc v : Nat) (r : Bytes), i ≤ 9 → acc < 2 ^ (7 * i) → consumeVarintAux i acc b = some (v, r) →
    v < 2 ^ 64 ∧ ∃ s, b = s ++ r ∧ 1 ≤ s.length ∧ i + s.length ≤ 10
  | [], _, _, _, _, _, _, h => by simp [consumeVarintAux] at h
  | b :: t, i, acc, v, r, hi, ha, h => by
    unfold consumeVarintAux at h
    have hb := b.toNat_lt
    by_cases h9 : i = 9
    · subst h9
      rw [if_pos rfl] at h
      split at h
      · next h2 =>
        simp only [Option.some.injEq, Prod.mk.injEq] at h
        obtain ⟨rfl, rfl⟩ := h
        refine ⟨?_, [b], rfl, by simp, by simp⟩
        have : acc < 2 ^ 63 := ha
        omega
      · cases h
    · rw [if_neg h9] at h
      have e : 2 ^ (7 * (i + 1)) = 2 ^ (7 * i) * 128 := by rw [Nat.mul_add, pow_add]; norm_num
      have hle : 2 ^ (7 * (i + 1)) ≤ 2 ^ 63 := Nat.pow_le_pow_right (by norm_num) (by omega)
      have bound : ∀ d : Nat, d < 128 → acc + d * 2 ^ (7 * i) < 2 ^ (7 * (i + 1)) := by
        intro d hd
        rw [e]
        have := Nat.mul_le_mul_right (2 ^ (7 * i)) (Nat.lt_iff_add_one_le.1 hd)
        generalize 2 ^ (7 * i) = A at *
        rw [Nat.add_mul] at this
        omega
      split at h
      · next h2 =>
        simp only [Option.some.injEq, Prod.mk.injEq] at h
        obtain ⟨rfl, rfl⟩ := h
        exact ⟨lt_of_lt_of_le (lt_of_lt_of_le (bound _ h2) hle) (by norm_num), [b], rfl, by simp, by simp; omega⟩
      · obtain ⟨h3, s, h4, h5, h6⟩ := varintAux_range t (i + 1) _ v r (by omega) (bound _ (by omega)) h
        exact ⟨h3, b :: s, by rw [h4]; rfl, by simp, by rw [List.length_cons]; omega⟩

/-- C63: numbers on the wire (tags and lengths) have at most ten bytes and 64 bits: anything longer or larger is refused. -/
theorem C63_varint_range (b : Bytes) (v : Nat) (r : Bytes) (h : consumeVarint b = some (v, r)) :
    v < 2 ^ 64 ∧ ∃ s, b = s ++ r ∧ 1 ≤ s.length ∧ s.length ≤ 10 := by
  obtain ⟨h1, s, h2, h3, h4⟩ := varintAux_range b 0 0 v r (by norm_num) (by norm_num) h
  exact ⟨h1, s, h2, h3, by omega⟩

/-- Non-vacuity: the largest number is read, one more is refused. -/
theorem C63_varint_case : consumeVarint [255, 255, 255, 255, 255, 255, 255, 255, 255, 1] = some (2 ^ 64 - 1, []) ∧
    consumeVarint [128, 128, 128, 128, 128, 128, 128, 128, 128, 2] = none := by decide +kernel

end Tss.Wire

namespace Tss.Common
open Tss

/-- C06: what each entry becomes: nil and 0 the empty string, any other integer the bytes of its absolute value without leading zeros. -/
theorem C06_entries (l : List (Option Int)) (k : Nat) (b : Bytes) (h : (BigIntsToBytes l)[k]? = some b) :
    ∃ z, l[k]? = some z ∧ (beNat b : Int) = |z.getD 0| ∧ (b = [] ↔ z = none ∨ z = some 0) ∧ b.head? ≠ some 0 := by
  unfold BigIntsToBytes at h
  rw [List.getElem?_map] at h
  obtain ⟨z, hz, rfl⟩ := Option.map_eq_some_iff.1 h
  refine ⟨z, hz, ?_⟩
  cases z with
  | none => simp [beNat]
  | some z =>
    simp only [Option.getD_some, beNat_intBytes, Int.natCast_natAbs, true_and, intBytes_eq_nil, reduceCtorEq, Option.some.injEq, false_or]
    have e : intBytes z = stripZeros (intBytes z) := by
      rw [← natBE_beNat, beNat_intBytes]; rfl
    rw [e]
    exact stripZeros_head _

end Tss.Common
