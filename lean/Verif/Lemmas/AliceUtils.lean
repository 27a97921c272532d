import Verif.Model.AlicePrime
import Verif.Lemmas.Common
import Verif.Lemmas.Wire
import Verif.Lemmas.Xor
import Mathlib.Data.Nat.Totient
import Mathlib.Data.Nat.Prime.Basic
import Mathlib.Data.ZMod.Basic
import Mathlib.FieldTheory.Finite.Basic
import Mathlib.GroupTheory.OrderOfElement
import Mathlib.Tactic.IntervalCases
import Mathlib.Tactic.Ring
import Mathlib.Data.ZMod.Units
namespace Tss.Alice
open Tss Text

theorem InRange_ok {v f c : Int} : InRange v f c = .ok () ↔ f ≤ v ∧ v < c := by
  unfold InRange
  split <;> [skip; (split <;> [skip; split])] <;> simp_all <;> omega

theorem InRange_not_panic (v f c : Int) : InRange v f c ≠ .panic := by
  unfold InRange; split <;> [skip; (split <;> [skip; split])] <;> simp

theorem IsRelativePrime_iff {a b : Int} : IsRelativePrime a b = true ↔ Int.gcd a b = 1 := by
  unfold IsRelativePrime Gcd
  rw [decide_eq_true_iff]; norm_cast

theorem RandomInt_range {n : Int} {tape : Bytes} {v : Int} {rest : Bytes}
    (h : RandomInt n tape = .ok (v, rest)) : 0 ≤ v ∧ v < n := by
  unfold RandomInt at h
  split at h
  · simp at h
  · cases hr : Common.randInt n tape with
    | ok r => rw [hr] at h; simp only [Res.ok.injEq] at h; subst h; exact Common.randInt_range hr
    | err e => rw [hr] at h; simp at h
    | panic => rw [hr] at h; simp at h

theorem RandomPositiveInt_range {n : Int} {tape : Bytes} {v : Int} {rest : Bytes}
    (h : RandomPositiveInt n tape = .ok (v, rest)) : 1 ≤ v ∧ v < n := by
  unfold RandomPositiveInt at h
  cases hr : RandomInt (n - 1) tape with
  | ok r =>
    obtain ⟨x, r⟩ := r
    rw [hr] at h
    simp only [Res.ok.injEq, Prod.mk.injEq] at h
    have := RandomInt_range hr
    omega
  | err e => rw [hr] at h; simp at h
  | panic => rw [hr] at h; simp at h

theorem RandomInt_reach (n v : Nat) (hv : v < n) (suffix : Bytes) :
    ∃ tape, RandomInt n tape = .ok ((v : Int), suffix) := by
  refine ⟨beFixed ((bitLen ((n : Int) - 1) + 7) / 8) v ++ suffix, ?_⟩
  unfold RandomInt
  rw [if_neg (by omega), Common.randInt_reach n v hv suffix]

theorem randomCoprimeLoop_range {n : Int} : ∀ (k : Nat) (tape : Bytes) (v : Int) (rest : Bytes),
    randomCoprimeLoop n k tape = .ok (v, rest) → 2 ≤ v ∧ v < n ∧ Int.gcd v n = 1
  | 0, tape, v, rest, h => by simp [randomCoprimeLoop] at h
  | k + 1, tape, v, rest, h => by
    unfold randomCoprimeLoop at h
    cases hr : RandomInt n tape with
    | ok r =>
      obtain ⟨x, r⟩ := r
      rw [hr] at h
      simp only at h
      split at h
      · exact randomCoprimeLoop_range k _ _ _ h
      · split at h
        · next h1 h2 =>
          simp only [Res.ok.injEq, Prod.mk.injEq] at h
          have := RandomInt_range hr
          rw [IsRelativePrime_iff] at h2
          refine ⟨by omega, by omega, ?_⟩
          rw [← h.1]; exact h2
        · exact randomCoprimeLoop_range k _ _ _ h
    | err e => rw [hr] at h; simp at h
    | panic => rw [hr] at h; simp at h

/-! ### extended hash -/

theorem extResult_length (Hb : Bytes → Bytes) (hH : ∀ b, (Hb b).length = 32) (salt msg : Bytes) (up : Nat) :
    ((List.range up).flatMap (extBlock Hb salt msg)).length = up * 32 := by
  induction up with
  | zero => rfl
  | succ k ih =>
    rw [List.range_succ, List.flatMap_append, List.length_append, ih]
    simp [extBlock, hH]; omega

theorem beNat_ExtnedHash_lt (Hb : Bytes → Bytes) (hH : ∀ b, (Hb b).length = 32) (salt msg : Bytes) (bl : Nat) :
    beNat (ExtnedHashOuput Hb salt msg bl) < 2 ^ bl := by
  unfold ExtnedHashOuput
  simp only
  rw [beNat_natBE]
  have h1 := beNat_lt ((List.range ((bl + 255) / 256)).flatMap (extBlock Hb salt msg))
  rw [extResult_length Hb hH] at h1
  rw [Nat.div_lt_iff_lt_mul (by positivity), ← pow_add]
  refine lt_of_lt_of_eq h1 ?_
  rw [show (256 : Nat) = 2 ^ 8 from rfl, ← pow_mul]
  congr 1
  omega

theorem bySeed_range (Hb : Bytes → Bytes) (hH : ∀ b, (Hb b).length = 32) (salt msg : Bytes) (q : Int) :
    -(2 ^ bitLen q) ≤ RandomAbsoluteRangeIntBySeed Hb salt msg q ∧
      RandomAbsoluteRangeIntBySeed Hb salt msg q < 2 ^ bitLen q := by
  unfold RandomAbsoluteRangeIntBySeed
  have := beNat_ExtnedHash_lt Hb hH salt msg (bitLen q + 1)
  have h2 : ((beNat (ExtnedHashOuput Hb salt msg (bitLen q + 1)) : Nat) : Int) < 2 ^ (bitLen q + 1) := by
    exact_mod_cast this
  rw [pow_succ] at h2
  constructor <;> omega

theorem getELoop_spec {Hb : Bytes → Bytes} {q : Int} {msgs : List Bytes} {salts : Nat → Bytes} :
    ∀ (k : Nat) (e : Int) (salt : Bytes), getELoop Hb q msgs salts k = .ok (e, salt) →
      e = RandomAbsoluteRangeIntBySeed Hb salt (HashProtos Hb salt msgs) q ∧ -q ≤ e ∧ e ≤ q ∧ ∃ i, i < k ∧ salt = salts i
  | 0, e, salt, h => by simp [getELoop] at h
  | k + 1, e, salt, h => by
    unfold getELoop at h
    simp only at h
    split at h
    · next hle =>
      simp only [Res.ok.injEq, Prod.mk.injEq] at h
      obtain ⟨h1, h2⟩ := h
      subst h2
      rw [h1] at hle
      exact ⟨h1.symm, by omega, by omega, k, by omega, rfl⟩
    · obtain ⟨a, b, c, i, hi, d⟩ := getELoop_spec k e salt h
      exact ⟨a, b, c, i, by omega, d⟩

theorem getELoop_err {Hb : Bytes → Bytes} {q : Int} {msgs : List Bytes} {salts : Nat → Bytes} :
    ∀ (k : Nat) (e : AErr), getELoop Hb q msgs salts k = .err e → e = .exceedMaxRetry
  | 0, e, h => by simp [getELoop] at h; exact h.symm
  | k + 1, e, h => by
    unfold getELoop at h
    simp only at h
    split at h
    · simp at h
    · exact getELoop_err k e h

theorem getELoop_not_panic {Hb : Bytes → Bytes} {q : Int} {msgs : List Bytes} {salts : Nat → Bytes} (k : Nat) :
    getELoop Hb q msgs salts k ≠ .panic := by
  induction k with
  | zero => simp [getELoop]
  | succ k ih => unfold getELoop; simp only; split <;> simp [ih]

/-! ### message hashing -/

theorem any_parts_inj {u a b : Bytes} (ha : a.length < 2 ^ 64) (hb : b.length < 2 ^ 64)
    (h : Wire.encField 1 u ++ Wire.encField 2 a = Wire.encField 1 u ++ Wire.encField 2 b) : a = b := by
  have h := List.append_cancel_left h
  rw [Wire.encField_eq, Wire.encField_eq] at h
  have h1 := Wire.parseFields_enc (Wire.sing 2 a) (Wire.FieldsOk_sing (by norm_num) (by norm_num) ha)
  have h2 := Wire.parseFields_enc (Wire.sing 2 b) (Wire.FieldsOk_sing (by norm_num) (by norm_num) hb)
  rw [h, h2] at h1
  have h3 := congrArg (Wire.getBytes 2) (Option.some.inj h1)
  rw [Wire.getBytes_eq, Wire.getBytes_eq, Wire.getBytesOpt_sing, Wire.getBytesOpt_sing] at h3
  simp at h3
  by_cases hA : a = [] <;> by_cases hB : b = [] <;> simp_all

/-! ### bits -/

theorem bits_round : ∀ n, n < 256 → bitsToBytesLoop (byteToBits 8 (UInt8.ofNat n)) = [UInt8.ofNat n] := by
  decide +kernel

theorem bitsToBytesLoop_append (x : UInt8) (l : List UInt8) :
    bitsToBytesLoop (byteToBits 8 x ++ l) = x :: bitsToBytesLoop l := by
  have h := bits_round x.toNat x.toNat_lt
  rw [UInt8.ofNat_toNat] at h
  simp only [byteToBits, List.cons_append, List.nil_append, bitsToBytesLoop, List.cons.injEq, and_true] at h ⊢
  exact h

/-- bit of a Boolean -/
def b2u (b : Bool) : UInt8 := if b then 1 else 0

theorem byteToBits_bitsToByte : ∀ a b c d e f g h : Bool,
    byteToBits 8 (bitsToByte (b2u a) (b2u b) (b2u c) (b2u d) (b2u e) (b2u f) (b2u g) (b2u h)) =
    [b2u a, b2u b, b2u c, b2u d, b2u e, b2u f, b2u g, b2u h] := by
  decide +kernel

theorem bit_cases {x : UInt8} (h : x = 0 ∨ x = 1) : ∃ b, x = b2u b := by
  rcases h with rfl | rfl
  · exact ⟨false, rfl⟩
  · exact ⟨true, rfl⟩

theorem bits_of_bytes : ∀ l : List UInt8, l.length % 8 = 0 → (∀ x ∈ l, x = 0 ∨ x = 1) →
    BytesToBits (bitsToBytesLoop l) = l
  | [], _, _ => rfl
  | a :: b :: c :: d :: e :: f :: g :: h :: t, hl, hb => by
    simp only [bitsToBytesLoop, BytesToBits, List.flatMap_cons]
    have ih := bits_of_bytes t (by simp only [List.length_cons] at hl; omega) (fun x hx => hb x (by simp [hx]))
    unfold BytesToBits at ih
    rw [ih]
    obtain ⟨a', rfl⟩ := bit_cases (hb a (by simp))
    obtain ⟨b', rfl⟩ := bit_cases (hb b (by simp))
    obtain ⟨c', rfl⟩ := bit_cases (hb c (by simp))
    obtain ⟨d', rfl⟩ := bit_cases (hb d (by simp))
    obtain ⟨e', rfl⟩ := bit_cases (hb e (by simp))
    obtain ⟨f', rfl⟩ := bit_cases (hb f (by simp))
    obtain ⟨g', rfl⟩ := bit_cases (hb g (by simp))
    obtain ⟨h', rfl⟩ := bit_cases (hb h (by simp))
    rw [byteToBits_bitsToByte]
    rfl
  | [_], hl, _ => by simp at hl
  | [_, _], hl, _ => by simp at hl
  | [_, _, _], hl, _ => by simp at hl
  | [_, _, _, _], hl, _ => by simp at hl
  | [_, _, _, _, _], hl, _ => by simp at hl
  | [_, _, _, _, _, _], hl, _ => by simp at hl
  | [_, _, _, _, _, _, _], hl, _ => by simp at hl

theorem byteToBits_length (k : Nat) (d : UInt8) : (byteToBits k d).length = k := by
  induction k generalizing d with
  | zero => rfl
  | succ k ih => simp [byteToBits, ih]

end Tss.Alice
