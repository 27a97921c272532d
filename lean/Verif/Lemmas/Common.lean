import Verif.Model.Common
import Verif.Lemmas.Go
import Mathlib.Data.Nat.Bits
import Mathlib.Data.List.Induction
import Mathlib.Data.Nat.Size

namespace Tss.Common
open Tss

/-- Go slices have fewer than 2^63 elements. -/
def Sized (parts : List Bytes) : Prop := parts.length < 2 ^ 63 ∧ ∀ p ∈ parts, p.length < 2 ^ 63

theorem append_inj_right_len {α} {a b c d : List α} (h : a ++ b = c ++ d) (hl : b.length = d.length) :
    a = c ∧ b = d := List.append_inj' h hl

theorem framePart_suffix_inj {u v a b : Bytes} (ha : a.length < 2 ^ 63) (hb : b.length < 2 ^ 63)
    (h : u ++ framePart a = v ++ framePart b) : u = v ∧ a = b := by
  unfold framePart at h
  have e : ∀ (w c : Bytes), w ++ (c ++ delimiter :: le64 c.length) = (w ++ c ++ [delimiter]) ++ le64 c.length := by
    intro w c; simp
  rw [e, e] at h
  obtain ⟨h1, h2⟩ := append_inj_right_len h (by simp)
  have hlen : a.length = b.length := le64_injective (by omega) (by omega) h2
  obtain ⟨h3, -⟩ := append_inj_right_len h1 (by simp)
  exact append_inj_right_len h3 hlen

theorem flatMap_frame_inj : ∀ (a b : List Bytes), a.length = b.length →
    (∀ p ∈ a, p.length < 2 ^ 63) → (∀ p ∈ b, p.length < 2 ^ 63) →
    a.flatMap framePart = b.flatMap framePart → a = b := by
  intro a
  induction a using List.reverseRecOn with
  | nil => intro b hl _ _ _; exact (List.length_eq_zero_iff.mp hl.symm).symm
  | append_singleton a x ih =>
    intro b hl ha hb h
    rcases List.eq_nil_or_concat b with rfl | ⟨b, y, rfl⟩
    · simp at hl
    · simp only [List.concat_eq_append] at *
      rw [List.flatMap_append, List.flatMap_append] at h
      simp only [List.flatMap_cons, List.flatMap_nil, List.append_nil] at h
      obtain ⟨h1, h2⟩ := framePart_suffix_inj (ha x (by simp)) (hb y (by simp)) h
      have := ih b (by simpa using hl) (fun p hp => ha p (by simp [hp])) (fun p hp => hb p (by simp [hp])) h1
      rw [this, h2]

theorem frame_inj {a b : List Bytes} (ha : Sized a) (hb : Sized b) (h : frame a = frame b) : a = b := by
  unfold frame at h
  obtain ⟨h1, h2⟩ := List.append_inj h (by simp)
  have hlen := le64_injective (by have := ha.1; omega) (by have := hb.1; omega) h1
  exact flatMap_frame_inj a b hlen ha.2 hb.2 h2

theorem bytesOfAll_some (ins : List Int) : bytesOfAll (ins.map some) = some (ins.map intBytes) := by
  induction ins with
  | nil => rfl
  | cons z t ih => simp [bytesOfAll, ih]

theorem bytesOfAll_none_iff (ins : List (Option Int)) : bytesOfAll ins = none ↔ none ∈ ins := by
  induction ins with
  | nil => simp [bytesOfAll]
  | cons z t ih => cases z <;> simp [bytesOfAll, ih]

theorem beNat_digest_inj {x y : Bytes} (hl : x.length = y.length) (h : (beNat x : Int) = beNat y) : x = y :=
  beNat_inj x y hl (by exact_mod_cast h)

/-! random -/

theorem bitLen_nat (n : Nat) : bitLen (n : Int) = n.size := by
  unfold bitLen
  simp only [Int.natAbs_natCast]
  by_cases h : n = 0
  · subst h; simp
  · rw [if_neg h]
    apply Nat.le_antisymm
    · have : 2 ^ n.log2 ≤ n := Nat.log2_self_le h
      exact Nat.lt_size.mpr this
    · rw [Nat.size_le]
      exact Nat.lt_log2_self

theorem lt_two_pow_bitLen (n : Nat) : n < 2 ^ bitLen (n : Int) := by
  rw [bitLen_nat]; exact Nat.lt_size_self n

theorem bitLen_pos {n : Nat} (h : 0 < n) : 0 < bitLen (n : Int) := by
  rw [bitLen_nat]; exact Nat.size_pos.mpr h

theorem two_pow_bitLen_le {n : Nat} (h : 0 < n) : 2 ^ (bitLen (n : Int) - 1) ≤ n := by
  have := bitLen_pos h
  rw [bitLen_nat] at *
  exact Nat.lt_size.mp (by omega)

theorem randIntLoop_lt {max k b : Nat} : ∀ (f : Nat) (tape : Bytes) (n : Nat) (rest : Bytes),
    randIntLoop max k b f tape = some (n, rest) → n < max
  | 0, _, _, _, h => by simp [randIntLoop] at h
  | f + 1, tape, n, rest, h => by
    unfold randIntLoop at h
    cases hr : readFull k tape with
    | none => simp [hr] at h
    | some p =>
      obtain ⟨buf, r⟩ := p
      simp only [hr] at h
      split at h
      · next hlt =>
        simp only [Option.some.injEq, Prod.mk.injEq] at h
        rw [← h.1]; exact hlt
      · exact randIntLoop_lt f r n rest h

theorem randInt_range {max : Int} {tape : Bytes} {n : Int} {rest : Bytes}
    (h : randInt max tape = .ok (n, rest)) : 0 ≤ n ∧ n < max := by
  unfold randInt at h
  split at h
  · simp at h
  · next hpos =>
    simp only at h
    split at h
    · next hb =>
      simp only [Res.ok.injEq, Prod.mk.injEq] at h
      omega
    · revert h
      generalize hl : randIntLoop _ _ _ _ _ = r
      cases r with
      | none => simp
      | some p =>
        obtain ⟨m, r⟩ := p
        intro h
        simp only [Res.ok.injEq, Prod.mk.injEq] at h
        have := randIntLoop_lt _ _ _ _ hl
        omega

/-- Every value below `max` is drawn on the tape that spells it. -/
theorem randInt_reach (max v : Nat) (hv : v < max) (suffix : Bytes) :
    randInt (max : Int) (beFixed ((bitLen ((max : Int) - 1) + 7) / 8) v ++ suffix) = .ok ((v : Int), suffix) := by
  unfold randInt
  rw [if_neg (by omega)]
  have hm : ((max : Int) - 1) = ((max - 1 : Nat) : Int) := by omega
  rw [hm]
  have hlt := lt_two_pow_bitLen (max - 1)
  generalize hbl : bitLen ((max - 1 : Nat) : Int) = bl at *
  simp only
  split
  · next hb =>
    subst hb
    have : v = 0 := by simp at hlt; omega
    subst this
    simp [beFixed, leFixed]
  · next hb =>
    have hk : 0 < (bl + 7) / 8 := by omega
    generalize hb' : (if bl % 8 = 0 then 8 else bl % 8) = b
    have hkb : bl = 8 * ((bl + 7) / 8 - 1) + b := by
      rw [← hb']; split <;> omega
    obtain ⟨k, hk'⟩ : ∃ k, (bl + 7) / 8 = k + 1 := ⟨(bl + 7) / 8 - 1, by omega⟩
    rw [hk']
    have hkb : bl = 8 * k + b := by omega
    unfold randIntLoop
    have hrd : readFull (k + 1) (beFixed (k + 1) v ++ suffix) = some (beFixed (k + 1) v, suffix) := by
      unfold readFull
      rw [if_neg (by simp)]
      simp
    rw [hrd]
    have hv2 : v < 2 ^ bl := by omega
    have hp : (256 : Nat) ^ k = 2 ^ (8 * k) := by rw [pow_mul]; norm_num
    have hvk : v < 256 ^ (k + 1) := by
      have h1 : (256 : Nat) ^ (k + 1) = 2 ^ (8 * (k + 1)) := by rw [pow_mul]; norm_num
      rw [h1]
      refine lt_of_lt_of_le hv2 (Nat.pow_le_pow_right (by norm_num) ?_)
      have : b ≤ 8 := by rw [← hb']; split <;> omega
      omega
    have hmask : maskFirst b (beFixed (k + 1) v) = beFixed (k + 1) v := by
      cases hbf : beFixed (k + 1) v with
      | nil => rfl
      | cons x t =>
        have hlen : t.length = k := by
          have := congrArg List.length hbf; simpa using this.symm
        have hval : beNat (x :: t) = v := by
          rw [← hbf, beNat_beFixed, Nat.mod_eq_of_lt hvk]
        rw [beNat_cons, hlen, hp] at hval
        have hx : x.toNat < 2 ^ b := by
          by_contra hc
          have : 2 ^ b * 2 ^ (8 * k) ≤ x.toNat * 2 ^ (8 * k) := Nat.mul_le_mul_right _ (by omega)
          rw [← pow_add, Nat.add_comm b, ← hkb] at this
          omega
        rw [maskFirst]
        congr 1
        apply UInt8.toNat_inj.mp
        rw [UInt8.toNat_ofNat', Nat.mod_eq_of_lt hx, Nat.mod_eq_of_lt (UInt8.toNat_lt x)]
    simp only [hmask]
    have hval : beNat (beFixed (k + 1) v) = v := by rw [beNat_beFixed, Nat.mod_eq_of_lt hvk]
    rw [hval, Int.toNat_natCast, if_pos hv]

theorem MustGetRandomInt_range {bits : Int} {tape : Bytes} {n : Int} {rest : Bytes}
    (h : MustGetRandomInt bits tape = .ok (n, rest)) :
    0 < bits ∧ bits ≤ 5000 ∧ 0 ≤ n ∧ n < 2 ^ bits.toNat - 1 := by
  unfold MustGetRandomInt at h
  split at h
  · simp at h
  · next hb =>
    simp only [not_or, not_le, not_lt, mustGetRandomIntMaxBits] at hb
    simp only at h
    split at h
    · next r hr =>
      simp only [Res.ok.injEq] at h
      subst h
      exact ⟨hb.1, hb.2, randInt_range hr⟩
    · simp at h
    · simp at h

theorem getRandomPositiveIntLoop_range {n : Int} : ∀ (f : Nat) (tape : Bytes) (r : Option Int) (rest : Bytes),
    getRandomPositiveIntLoop n f tape = some (.ok (r, rest)) → ∃ v, r = some v ∧ 0 ≤ v ∧ v < n
  | 0, _, _, _, h => by simp [getRandomPositiveIntLoop] at h
  | f + 1, tape, r, rest, h => by
    unfold getRandomPositiveIntLoop at h
    split at h
    · next t rest' ht =>
      split at h
      · next hlt =>
        simp only [Option.some.injEq, Res.ok.injEq, Prod.mk.injEq] at h
        exact ⟨t, h.1.symm, (MustGetRandomInt_range ht).2.2.1, hlt⟩
      · exact getRandomPositiveIntLoop_range f rest' r rest h
    · simp at h
    · simp at h

theorem relPrimeLoop_range {n : Int} : ∀ (f : Nat) (tape : Bytes) (r : Option Int) (rest : Bytes),
    relPrimeLoop n f tape = some (.ok (r, rest)) →
      ∃ v, r = some v ∧ IsNumberInMultiplicativeGroup (some n) (some v) = true
  | 0, _, _, _, h => by simp [relPrimeLoop] at h
  | f + 1, tape, r, rest, h => by
    unfold relPrimeLoop at h
    split at h
    · next t rest' ht =>
      split at h
      · next hlt =>
        simp only [Option.some.injEq, Res.ok.injEq, Prod.mk.injEq] at h
        exact ⟨t, h.1.symm, hlt⟩
      · exact relPrimeLoop_range f rest' r rest h
    · simp at h
    · simp at h

theorem MustGetRandomInt_reach (bits v : Nat) (h1 : 0 < bits) (h2 : bits ≤ 5000) (hv : v < 2 ^ bits - 1)
    (suffix : Bytes) : ∃ pre : Bytes, MustGetRandomInt bits (pre ++ suffix) = .ok ((v : Int), suffix) := by
  have hmax : ((2 : Int) ^ (bits : Int).toNat - 1) = ((2 ^ bits - 1 : Nat) : Int) := by
    have : 1 ≤ 2 ^ bits := Nat.one_le_two_pow
    simp [Nat.cast_sub this]
  refine ⟨beFixed ((bitLen (((2 ^ bits - 1 : Nat) : Int) - 1) + 7) / 8) v, ?_⟩
  unfold MustGetRandomInt
  rw [if_neg (by simp [mustGetRandomIntMaxBits]; omega)]
  simp only [hmax, randInt_reach _ v hv suffix]

theorem lt_pow_bitLen_sub_one {n v : Nat} (h : v < n) : v < 2 ^ bitLen (n : Int) - 1 := by
  have := lt_two_pow_bitLen n
  omega

theorem prependZeros_eq : ∀ (n : Nat) (src : Bytes), prependZeros n src = List.replicate n 0 ++ src
  | 0, _ => rfl
  | n + 1, src => by
    rw [prependZeros, prependZeros_eq n, List.replicate_succ', List.append_assoc]; rfl

theorem allNonEmpty_iff : ∀ l : List Bytes, allNonEmpty l = true ↔ ∀ b ∈ l, b ≠ []
  | [] => by simp [allNonEmpty]
  | b :: t => by
    cases b with
    | nil => simp [allNonEmpty, NonEmptyBytes]
    | cons x s => simp [allNonEmpty, NonEmptyBytes, allNonEmpty_iff t]

end Tss.Common
