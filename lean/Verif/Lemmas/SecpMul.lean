import Verif.Lemmas.SecpField
/-
Mul2 and SquareVal of btcec's field arithmetic: the column sums do not overflow and the reduction is modulo P.
-/
set_option exponentiation.threshold 600
namespace Tss.Secp
open Tss

/-- The number the twenty words of a product stand for. -/
def Wide.val (t : Wide) : Nat :=
  t.t0.toNat + t.t1.toNat * 2 ^ 26 + t.t2.toNat * 2 ^ 52 + t.t3.toNat * 2 ^ 78 + t.t4.toNat * 2 ^ 104 + t.t5.toNat * 2 ^ 130 + t.t6.toNat * 2 ^ 156 + t.t7.toNat * 2 ^ 182 + t.t8.toNat * 2 ^ 208 + t.t9.toNat * 2 ^ 234 + t.t10.toNat * 2 ^ 260 + t.t11.toNat * 2 ^ 286 + t.t12.toNat * 2 ^ 312 + t.t13.toNat * 2 ^ 338 + t.t14.toNat * 2 ^ 364 + t.t15.toNat * 2 ^ 390 + t.t16.toNat * 2 ^ 416 + t.t17.toNat * 2 ^ 442 + t.t18.toNat * 2 ^ 468 + t.t19.toNat * 2 ^ 494

/-- The words of a product as `mulTerms` leaves them. -/
structure Wide.Ok (t : Wide) : Prop where
  h0 : t.t0.toNat < 2 ^ 26
  h1 : t.t1.toNat < 2 ^ 26
  h2 : t.t2.toNat < 2 ^ 26
  h3 : t.t3.toNat < 2 ^ 26
  h4 : t.t4.toNat < 2 ^ 26
  h5 : t.t5.toNat < 2 ^ 26
  h6 : t.t6.toNat < 2 ^ 26
  h7 : t.t7.toNat < 2 ^ 26
  h8 : t.t8.toNat < 2 ^ 26
  h9 : t.t9.toNat < 2 ^ 26
  h10 : t.t10.toNat < 2 ^ 26
  h11 : t.t11.toNat < 2 ^ 26
  h12 : t.t12.toNat < 2 ^ 26
  h13 : t.t13.toNat < 2 ^ 26
  h14 : t.t14.toNat < 2 ^ 26
  h15 : t.t15.toNat < 2 ^ 26
  h16 : t.t16.toNat < 2 ^ 26
  h17 : t.t17.toNat < 2 ^ 26
  h18 : t.t18.toNat < 2 ^ 26
  h19 : t.t19.toNat ≤ 2 ^ 24 + 2 ^ 5

theorem prod_le {a b A B : Nat} (ha : a ≤ A) (hb : b ≤ B) : a * b ≤ A * B := Nat.mul_le_mul ha hb

theorem prod_le1 {a b : Nat} (ha : a ≤ 8 * (2 ^ 26 + 2 ^ 19)) (hb : b ≤ 8 * (2 ^ 26 + 2 ^ 19)) :
    a * b ≤ 292751567965126656 := by
  have := Nat.mul_le_mul ha hb
  norm_num at this ⊢
  omega

theorem prod_le2 {a b : Nat} (ha : a ≤ 8 * (2 ^ 26 + 2 ^ 19)) (hb : b ≤ 8 * 2 ^ 22) : a * b ≤ 2 ^ 55 := by
  have := Nat.mul_le_mul ha hb
  norm_num at this ⊢
  omega

theorem prod_le3 {a b : Nat} (ha : a ≤ 8 * 2 ^ 22) (hb : b ≤ 8 * 2 ^ 22) : a * b ≤ 2 ^ 50 := by
  have := Nat.mul_le_mul ha hb
  norm_num at this ⊢
  omega

/-- A carried column. -/
theorem carry {m q r : Nat} (hq : m / 2 ^ 26 = q) (hr : m % 2 ^ 26 = r) : m = q * 2 ^ 26 + r := by
  subst hq hr; omega

theorem chain_val {m0 m1 m2 m3 m4 m5 m6 m7 m8 m9 m10 m11 m12 m13 m14 m15 m16 m17 m18 s0 s1 s2 s3 s4 s5 s6 s7 s8 s9 s10 s11 s12 s13 s14 s15 s16 s17 s18 : Nat} (e0 : m0 = s0)
    (e1 : m1 = m0 / 2 ^ 26 + s1)
    (e2 : m2 = m1 / 2 ^ 26 + s2)
    (e3 : m3 = m2 / 2 ^ 26 + s3)
    (e4 : m4 = m3 / 2 ^ 26 + s4)
    (e5 : m5 = m4 / 2 ^ 26 + s5)
    (e6 : m6 = m5 / 2 ^ 26 + s6)
    (e7 : m7 = m6 / 2 ^ 26 + s7)
    (e8 : m8 = m7 / 2 ^ 26 + s8)
    (e9 : m9 = m8 / 2 ^ 26 + s9)
    (e10 : m10 = m9 / 2 ^ 26 + s10)
    (e11 : m11 = m10 / 2 ^ 26 + s11)
    (e12 : m12 = m11 / 2 ^ 26 + s12)
    (e13 : m13 = m12 / 2 ^ 26 + s13)
    (e14 : m14 = m13 / 2 ^ 26 + s14)
    (e15 : m15 = m14 / 2 ^ 26 + s15)
    (e16 : m16 = m15 / 2 ^ 26 + s16)
    (e17 : m17 = m16 / 2 ^ 26 + s17)
    (e18 : m18 = m17 / 2 ^ 26 + s18)
    : m0 % 2 ^ 26 + m1 % 2 ^ 26 * 2 ^ 26 + m2 % 2 ^ 26 * 2 ^ 52 + m3 % 2 ^ 26 * 2 ^ 78 + m4 % 2 ^ 26 * 2 ^ 104 + m5 % 2 ^ 26 * 2 ^ 130 + m6 % 2 ^ 26 * 2 ^ 156 + m7 % 2 ^ 26 * 2 ^ 182 + m8 % 2 ^ 26 * 2 ^ 208 + m9 % 2 ^ 26 * 2 ^ 234 + m10 % 2 ^ 26 * 2 ^ 260 + m11 % 2 ^ 26 * 2 ^ 286 + m12 % 2 ^ 26 * 2 ^ 312 + m13 % 2 ^ 26 * 2 ^ 338 + m14 % 2 ^ 26 * 2 ^ 364 + m15 % 2 ^ 26 * 2 ^ 390 + m16 % 2 ^ 26 * 2 ^ 416 + m17 % 2 ^ 26 * 2 ^ 442 + m18 % 2 ^ 26 * 2 ^ 468 + m18 / 2 ^ 26 * 2 ^ 494 =
      s0 + s1 * 2 ^ 26 + s2 * 2 ^ 52 + s3 * 2 ^ 78 + s4 * 2 ^ 104 + s5 * 2 ^ 130 + s6 * 2 ^ 156 + s7 * 2 ^ 182 + s8 * 2 ^ 208 + s9 * 2 ^ 234 + s10 * 2 ^ 260 + s11 * 2 ^ 286 + s12 * 2 ^ 312 + s13 * 2 ^ 338 + s14 * 2 ^ 364 + s15 * 2 ^ 390 + s16 * 2 ^ 416 + s17 * 2 ^ 442 + s18 * 2 ^ 468 := by
  have d0 := carry (m := m0) rfl rfl
  have d1 := carry (m := m1) rfl rfl
  have d2 := carry (m := m2) rfl rfl
  have d3 := carry (m := m3) rfl rfl
  have d4 := carry (m := m4) rfl rfl
  have d5 := carry (m := m5) rfl rfl
  have d6 := carry (m := m6) rfl rfl
  have d7 := carry (m := m7) rfl rfl
  have d8 := carry (m := m8) rfl rfl
  have d9 := carry (m := m9) rfl rfl
  have d10 := carry (m := m10) rfl rfl
  have d11 := carry (m := m11) rfl rfl
  have d12 := carry (m := m12) rfl rfl
  have d13 := carry (m := m13) rfl rfl
  have d14 := carry (m := m14) rfl rfl
  have d15 := carry (m := m15) rfl rfl
  have d16 := carry (m := m16) rfl rfl
  have d17 := carry (m := m17) rfl rfl
  have d18 := carry (m := m18) rfl rfl
  generalize m0 / 2 ^ 26 = q0 at *
  generalize m0 % 2 ^ 26 = r0 at *
  generalize m1 / 2 ^ 26 = q1 at *
  generalize m1 % 2 ^ 26 = r1 at *
  generalize m2 / 2 ^ 26 = q2 at *
  generalize m2 % 2 ^ 26 = r2 at *
  generalize m3 / 2 ^ 26 = q3 at *
  generalize m3 % 2 ^ 26 = r3 at *
  generalize m4 / 2 ^ 26 = q4 at *
  generalize m4 % 2 ^ 26 = r4 at *
  generalize m5 / 2 ^ 26 = q5 at *
  generalize m5 % 2 ^ 26 = r5 at *
  generalize m6 / 2 ^ 26 = q6 at *
  generalize m6 % 2 ^ 26 = r6 at *
  generalize m7 / 2 ^ 26 = q7 at *
  generalize m7 % 2 ^ 26 = r7 at *
  generalize m8 / 2 ^ 26 = q8 at *
  generalize m8 % 2 ^ 26 = r8 at *
  generalize m9 / 2 ^ 26 = q9 at *
  generalize m9 % 2 ^ 26 = r9 at *
  generalize m10 / 2 ^ 26 = q10 at *
  generalize m10 % 2 ^ 26 = r10 at *
  generalize m11 / 2 ^ 26 = q11 at *
  generalize m11 % 2 ^ 26 = r11 at *
  generalize m12 / 2 ^ 26 = q12 at *
  generalize m12 % 2 ^ 26 = r12 at *
  generalize m13 / 2 ^ 26 = q13 at *
  generalize m13 % 2 ^ 26 = r13 at *
  generalize m14 / 2 ^ 26 = q14 at *
  generalize m14 % 2 ^ 26 = r14 at *
  generalize m15 / 2 ^ 26 = q15 at *
  generalize m15 % 2 ^ 26 = r15 at *
  generalize m16 / 2 ^ 26 = q16 at *
  generalize m16 % 2 ^ 26 = r16 at *
  generalize m17 / 2 ^ 26 = q17 at *
  generalize m17 % 2 ^ 26 = r17 at *
  generalize m18 / 2 ^ 26 = q18 at *
  generalize m18 % 2 ^ 26 = r18 at *
  zify at *
  linear_combination 2 ^ 0 * (e0 - d0) + 2 ^ 26 * (e1 - d1) + 2 ^ 52 * (e2 - d2) + 2 ^ 78 * (e3 - d3) + 2 ^ 104 * (e4 - d4) + 2 ^ 130 * (e5 - d5) + 2 ^ 156 * (e6 - d6) + 2 ^ 182 * (e7 - d7) + 2 ^ 208 * (e8 - d8) + 2 ^ 234 * (e9 - d9) + 2 ^ 260 * (e10 - d10) + 2 ^ 286 * (e11 - d11) + 2 ^ 312 * (e12 - d12) + 2 ^ 338 * (e13 - d13) + 2 ^ 364 * (e14 - d14) + 2 ^ 390 * (e15 - d15) + 2 ^ 416 * (e16 - d16) + 2 ^ 442 * (e17 - d17) + 2 ^ 468 * (e18 - d18)

theorem u64_two_mul32 (a b : UInt32) : (2 * a.toUInt64 * b.toUInt64).toNat = 2 * (a.toNat * b.toNat) % 2 ^ 64 := by
  rw [UInt64.toNat_mul, UInt64.toNat_mul, UInt32.toNat_toUInt64, UInt32.toNat_toUInt64]
  rw [Nat.mod_mul_mod, Nat.mul_assoc]; rfl

theorem mulTerms_spec {a b : FV} (ha : a.Mag 8) (hb : b.Mag 8) : (a.mulTerms b).Ok ∧ (a.mulTerms b).val = a.val * b.val := by
  obtain ⟨a0, a1, a2, a3, a4, a5, a6, a7, a8, a9⟩ := ha
  obtain ⟨b0, b1, b2, b3, b4, b5, b6, b7, b8, b9⟩ := hb
  unfold FV.mulTerms
  extract_lets m0 m1 m2 m3 m4 m5 m6 m7 m8 m9 m10 m11 m12 m13 m14 m15 m16 m17 m18
  have e0 : m0.toNat = a.n0.toNat * b.n0.toNat ∧ m0.toNat < 2 ^ 62 := by
    have p0 := prod_le1 a0 b0
    have e : m0.toNat = a.n0.toNat * b.n0.toNat := by
      simp only [m0, UInt64.toNat_add, u64_mul32, u64_shr26, Nat.mod_add_mod]
      try rfl
    exact ⟨e, by rw [e]; omega⟩
  obtain ⟨e0, c0⟩ := e0
  have e1 : m1.toNat = m0.toNat / 2 ^ 26 + (a.n0.toNat * b.n1.toNat + a.n1.toNat * b.n0.toNat) ∧ m1.toNat < 2 ^ 62 := by
    have p0 := prod_le1 a0 b1
    have p1 := prod_le1 a1 b0
    have l := m0.toNat_lt
    have e : m1.toNat = m0.toNat / 2 ^ 26 + (a.n0.toNat * b.n1.toNat + a.n1.toNat * b.n0.toNat) := by
      simp only [m1, UInt64.toNat_add, u64_mul32, u64_shr26, Nat.mod_add_mod]
      rw [Nat.mod_eq_of_lt (by omega)] <;> omega
    exact ⟨e, by rw [e]; omega⟩
  obtain ⟨e1, c1⟩ := e1
  clear_value m0
  have e2 : m2.toNat = m1.toNat / 2 ^ 26 + (a.n0.toNat * b.n2.toNat + a.n1.toNat * b.n1.toNat + a.n2.toNat * b.n0.toNat) ∧ m2.toNat < 2 ^ 62 := by
    have p0 := prod_le1 a0 b2
    have p1 := prod_le1 a1 b1
    have p2 := prod_le1 a2 b0
    have l := m1.toNat_lt
    have e : m2.toNat = m1.toNat / 2 ^ 26 + (a.n0.toNat * b.n2.toNat + a.n1.toNat * b.n1.toNat + a.n2.toNat * b.n0.toNat) := by
      simp only [m2, UInt64.toNat_add, u64_mul32, u64_shr26, Nat.mod_add_mod]
      rw [Nat.mod_eq_of_lt (by omega)] <;> omega
    exact ⟨e, by rw [e]; omega⟩
  obtain ⟨e2, c2⟩ := e2
  clear_value m1
  have e3 : m3.toNat = m2.toNat / 2 ^ 26 + (a.n0.toNat * b.n3.toNat + a.n1.toNat * b.n2.toNat + a.n2.toNat * b.n1.toNat + a.n3.toNat * b.n0.toNat) ∧ m3.toNat < 2 ^ 62 := by
    have p0 := prod_le1 a0 b3
    have p1 := prod_le1 a1 b2
    have p2 := prod_le1 a2 b1
    have p3 := prod_le1 a3 b0
    have l := m2.toNat_lt
    have e : m3.toNat = m2.toNat / 2 ^ 26 + (a.n0.toNat * b.n3.toNat + a.n1.toNat * b.n2.toNat + a.n2.toNat * b.n1.toNat + a.n3.toNat * b.n0.toNat) := by
      simp only [m3, UInt64.toNat_add, u64_mul32, u64_shr26, Nat.mod_add_mod]
      rw [Nat.mod_eq_of_lt (by omega)] <;> omega
    exact ⟨e, by rw [e]; omega⟩
  obtain ⟨e3, c3⟩ := e3
  clear_value m2
  have e4 : m4.toNat = m3.toNat / 2 ^ 26 + (a.n0.toNat * b.n4.toNat + a.n1.toNat * b.n3.toNat + a.n2.toNat * b.n2.toNat + a.n3.toNat * b.n1.toNat + a.n4.toNat * b.n0.toNat) ∧ m4.toNat < 2 ^ 62 := by
    have p0 := prod_le1 a0 b4
    have p1 := prod_le1 a1 b3
    have p2 := prod_le1 a2 b2
    have p3 := prod_le1 a3 b1
    have p4 := prod_le1 a4 b0
    have l := m3.toNat_lt
    have e : m4.toNat = m3.toNat / 2 ^ 26 + (a.n0.toNat * b.n4.toNat + a.n1.toNat * b.n3.toNat + a.n2.toNat * b.n2.toNat + a.n3.toNat * b.n1.toNat + a.n4.toNat * b.n0.toNat) := by
      simp only [m4, UInt64.toNat_add, u64_mul32, u64_shr26, Nat.mod_add_mod]
      rw [Nat.mod_eq_of_lt (by omega)] <;> omega
    exact ⟨e, by rw [e]; omega⟩
  obtain ⟨e4, c4⟩ := e4
  clear_value m3
  have e5 : m5.toNat = m4.toNat / 2 ^ 26 + (a.n0.toNat * b.n5.toNat + a.n1.toNat * b.n4.toNat + a.n2.toNat * b.n3.toNat + a.n3.toNat * b.n2.toNat + a.n4.toNat * b.n1.toNat + a.n5.toNat * b.n0.toNat) ∧ m5.toNat < 2 ^ 62 := by
    have p0 := prod_le1 a0 b5
    have p1 := prod_le1 a1 b4
    have p2 := prod_le1 a2 b3
    have p3 := prod_le1 a3 b2
    have p4 := prod_le1 a4 b1
    have p5 := prod_le1 a5 b0
    have l := m4.toNat_lt
    have e : m5.toNat = m4.toNat / 2 ^ 26 + (a.n0.toNat * b.n5.toNat + a.n1.toNat * b.n4.toNat + a.n2.toNat * b.n3.toNat + a.n3.toNat * b.n2.toNat + a.n4.toNat * b.n1.toNat + a.n5.toNat * b.n0.toNat) := by
      simp only [m5, UInt64.toNat_add, u64_mul32, u64_shr26, Nat.mod_add_mod]
      rw [Nat.mod_eq_of_lt (by omega)] <;> omega
    exact ⟨e, by rw [e]; omega⟩
  obtain ⟨e5, c5⟩ := e5
  clear_value m4
  have e6 : m6.toNat = m5.toNat / 2 ^ 26 + (a.n0.toNat * b.n6.toNat + a.n1.toNat * b.n5.toNat + a.n2.toNat * b.n4.toNat + a.n3.toNat * b.n3.toNat + a.n4.toNat * b.n2.toNat + a.n5.toNat * b.n1.toNat + a.n6.toNat * b.n0.toNat) ∧ m6.toNat < 2 ^ 62 := by
    have p0 := prod_le1 a0 b6
    have p1 := prod_le1 a1 b5
    have p2 := prod_le1 a2 b4
    have p3 := prod_le1 a3 b3
    have p4 := prod_le1 a4 b2
    have p5 := prod_le1 a5 b1
    have p6 := prod_le1 a6 b0
    have l := m5.toNat_lt
    have e : m6.toNat = m5.toNat / 2 ^ 26 + (a.n0.toNat * b.n6.toNat + a.n1.toNat * b.n5.toNat + a.n2.toNat * b.n4.toNat + a.n3.toNat * b.n3.toNat + a.n4.toNat * b.n2.toNat + a.n5.toNat * b.n1.toNat + a.n6.toNat * b.n0.toNat) := by
      simp only [m6, UInt64.toNat_add, u64_mul32, u64_shr26, Nat.mod_add_mod]
      rw [Nat.mod_eq_of_lt (by omega)] <;> omega
    exact ⟨e, by rw [e]; omega⟩
  obtain ⟨e6, c6⟩ := e6
  clear_value m5
  have e7 : m7.toNat = m6.toNat / 2 ^ 26 + (a.n0.toNat * b.n7.toNat + a.n1.toNat * b.n6.toNat + a.n2.toNat * b.n5.toNat + a.n3.toNat * b.n4.toNat + a.n4.toNat * b.n3.toNat + a.n5.toNat * b.n2.toNat + a.n6.toNat * b.n1.toNat + a.n7.toNat * b.n0.toNat) ∧ m7.toNat < 2 ^ 62 := by
    have p0 := prod_le1 a0 b7
    have p1 := prod_le1 a1 b6
    have p2 := prod_le1 a2 b5
    have p3 := prod_le1 a3 b4
    have p4 := prod_le1 a4 b3
    have p5 := prod_le1 a5 b2
    have p6 := prod_le1 a6 b1
    have p7 := prod_le1 a7 b0
    have l := m6.toNat_lt
    have e : m7.toNat = m6.toNat / 2 ^ 26 + (a.n0.toNat * b.n7.toNat + a.n1.toNat * b.n6.toNat + a.n2.toNat * b.n5.toNat + a.n3.toNat * b.n4.toNat + a.n4.toNat * b.n3.toNat + a.n5.toNat * b.n2.toNat + a.n6.toNat * b.n1.toNat + a.n7.toNat * b.n0.toNat) := by
      simp only [m7, UInt64.toNat_add, u64_mul32, u64_shr26, Nat.mod_add_mod]
      rw [Nat.mod_eq_of_lt (by omega)] <;> omega
    exact ⟨e, by rw [e]; omega⟩
  obtain ⟨e7, c7⟩ := e7
  clear_value m6
  have e8 : m8.toNat = m7.toNat / 2 ^ 26 + (a.n0.toNat * b.n8.toNat + a.n1.toNat * b.n7.toNat + a.n2.toNat * b.n6.toNat + a.n3.toNat * b.n5.toNat + a.n4.toNat * b.n4.toNat + a.n5.toNat * b.n3.toNat + a.n6.toNat * b.n2.toNat + a.n7.toNat * b.n1.toNat + a.n8.toNat * b.n0.toNat) ∧ m8.toNat < 2 ^ 62 := by
    have p0 := prod_le1 a0 b8
    have p1 := prod_le1 a1 b7
    have p2 := prod_le1 a2 b6
    have p3 := prod_le1 a3 b5
    have p4 := prod_le1 a4 b4
    have p5 := prod_le1 a5 b3
    have p6 := prod_le1 a6 b2
    have p7 := prod_le1 a7 b1
    have p8 := prod_le1 a8 b0
    have l := m7.toNat_lt
    have e : m8.toNat = m7.toNat / 2 ^ 26 + (a.n0.toNat * b.n8.toNat + a.n1.toNat * b.n7.toNat + a.n2.toNat * b.n6.toNat + a.n3.toNat * b.n5.toNat + a.n4.toNat * b.n4.toNat + a.n5.toNat * b.n3.toNat + a.n6.toNat * b.n2.toNat + a.n7.toNat * b.n1.toNat + a.n8.toNat * b.n0.toNat) := by
      simp only [m8, UInt64.toNat_add, u64_mul32, u64_shr26, Nat.mod_add_mod]
      rw [Nat.mod_eq_of_lt (by omega)] <;> omega
    exact ⟨e, by rw [e]; omega⟩
  obtain ⟨e8, c8⟩ := e8
  clear_value m7
  have e9 : m9.toNat = m8.toNat / 2 ^ 26 + (a.n0.toNat * b.n9.toNat + a.n1.toNat * b.n8.toNat + a.n2.toNat * b.n7.toNat + a.n3.toNat * b.n6.toNat + a.n4.toNat * b.n5.toNat + a.n5.toNat * b.n4.toNat + a.n6.toNat * b.n3.toNat + a.n7.toNat * b.n2.toNat + a.n8.toNat * b.n1.toNat + a.n9.toNat * b.n0.toNat) ∧ m9.toNat < 2 ^ 62 := by
    have p0 := prod_le1 a0 (b9.trans (by norm_num))
    have p1 := prod_le1 a1 b8
    have p2 := prod_le1 a2 b7
    have p3 := prod_le1 a3 b6
    have p4 := prod_le1 a4 b5
    have p5 := prod_le1 a5 b4
    have p6 := prod_le1 a6 b3
    have p7 := prod_le1 a7 b2
    have p8 := prod_le1 a8 b1
    have p9 := prod_le1 (a9.trans (by norm_num)) b0
    have l := m8.toNat_lt
    have e : m9.toNat = m8.toNat / 2 ^ 26 + (a.n0.toNat * b.n9.toNat + a.n1.toNat * b.n8.toNat + a.n2.toNat * b.n7.toNat + a.n3.toNat * b.n6.toNat + a.n4.toNat * b.n5.toNat + a.n5.toNat * b.n4.toNat + a.n6.toNat * b.n3.toNat + a.n7.toNat * b.n2.toNat + a.n8.toNat * b.n1.toNat + a.n9.toNat * b.n0.toNat) := by
      simp only [m9, UInt64.toNat_add, u64_mul32, u64_shr26, Nat.mod_add_mod]
      rw [Nat.mod_eq_of_lt (by omega)] <;> omega
    exact ⟨e, by rw [e]; omega⟩
  obtain ⟨e9, c9⟩ := e9
  clear_value m8
  have e10 : m10.toNat = m9.toNat / 2 ^ 26 + (a.n1.toNat * b.n9.toNat + a.n2.toNat * b.n8.toNat + a.n3.toNat * b.n7.toNat + a.n4.toNat * b.n6.toNat + a.n5.toNat * b.n5.toNat + a.n6.toNat * b.n4.toNat + a.n7.toNat * b.n3.toNat + a.n8.toNat * b.n2.toNat + a.n9.toNat * b.n1.toNat) ∧ m10.toNat < 2 ^ 62 := by
    have p0 := prod_le1 a1 (b9.trans (by norm_num))
    have p1 := prod_le1 a2 b8
    have p2 := prod_le1 a3 b7
    have p3 := prod_le1 a4 b6
    have p4 := prod_le1 a5 b5
    have p5 := prod_le1 a6 b4
    have p6 := prod_le1 a7 b3
    have p7 := prod_le1 a8 b2
    have p8 := prod_le1 (a9.trans (by norm_num)) b1
    have l := m9.toNat_lt
    have e : m10.toNat = m9.toNat / 2 ^ 26 + (a.n1.toNat * b.n9.toNat + a.n2.toNat * b.n8.toNat + a.n3.toNat * b.n7.toNat + a.n4.toNat * b.n6.toNat + a.n5.toNat * b.n5.toNat + a.n6.toNat * b.n4.toNat + a.n7.toNat * b.n3.toNat + a.n8.toNat * b.n2.toNat + a.n9.toNat * b.n1.toNat) := by
      simp only [m10, UInt64.toNat_add, u64_mul32, u64_shr26, Nat.mod_add_mod]
      rw [Nat.mod_eq_of_lt (by omega)] <;> omega
    exact ⟨e, by rw [e]; omega⟩
  obtain ⟨e10, c10⟩ := e10
  clear_value m9
  have e11 : m11.toNat = m10.toNat / 2 ^ 26 + (a.n2.toNat * b.n9.toNat + a.n3.toNat * b.n8.toNat + a.n4.toNat * b.n7.toNat + a.n5.toNat * b.n6.toNat + a.n6.toNat * b.n5.toNat + a.n7.toNat * b.n4.toNat + a.n8.toNat * b.n3.toNat + a.n9.toNat * b.n2.toNat) ∧ m11.toNat < 2 ^ 62 := by
    have p0 := prod_le1 a2 (b9.trans (by norm_num))
    have p1 := prod_le1 a3 b8
    have p2 := prod_le1 a4 b7
    have p3 := prod_le1 a5 b6
    have p4 := prod_le1 a6 b5
    have p5 := prod_le1 a7 b4
    have p6 := prod_le1 a8 b3
    have p7 := prod_le1 (a9.trans (by norm_num)) b2
    have l := m10.toNat_lt
    have e : m11.toNat = m10.toNat / 2 ^ 26 + (a.n2.toNat * b.n9.toNat + a.n3.toNat * b.n8.toNat + a.n4.toNat * b.n7.toNat + a.n5.toNat * b.n6.toNat + a.n6.toNat * b.n5.toNat + a.n7.toNat * b.n4.toNat + a.n8.toNat * b.n3.toNat + a.n9.toNat * b.n2.toNat) := by
      simp only [m11, UInt64.toNat_add, u64_mul32, u64_shr26, Nat.mod_add_mod]
      rw [Nat.mod_eq_of_lt (by omega)] <;> omega
    exact ⟨e, by rw [e]; omega⟩
  obtain ⟨e11, c11⟩ := e11
  clear_value m10
  have e12 : m12.toNat = m11.toNat / 2 ^ 26 + (a.n3.toNat * b.n9.toNat + a.n4.toNat * b.n8.toNat + a.n5.toNat * b.n7.toNat + a.n6.toNat * b.n6.toNat + a.n7.toNat * b.n5.toNat + a.n8.toNat * b.n4.toNat + a.n9.toNat * b.n3.toNat) ∧ m12.toNat < 2 ^ 62 := by
    have p0 := prod_le1 a3 (b9.trans (by norm_num))
    have p1 := prod_le1 a4 b8
    have p2 := prod_le1 a5 b7
    have p3 := prod_le1 a6 b6
    have p4 := prod_le1 a7 b5
    have p5 := prod_le1 a8 b4
    have p6 := prod_le1 (a9.trans (by norm_num)) b3
    have l := m11.toNat_lt
    have e : m12.toNat = m11.toNat / 2 ^ 26 + (a.n3.toNat * b.n9.toNat + a.n4.toNat * b.n8.toNat + a.n5.toNat * b.n7.toNat + a.n6.toNat * b.n6.toNat + a.n7.toNat * b.n5.toNat + a.n8.toNat * b.n4.toNat + a.n9.toNat * b.n3.toNat) := by
      simp only [m12, UInt64.toNat_add, u64_mul32, u64_shr26, Nat.mod_add_mod]
      rw [Nat.mod_eq_of_lt (by omega)] <;> omega
    exact ⟨e, by rw [e]; omega⟩
  obtain ⟨e12, c12⟩ := e12
  clear_value m11
  have e13 : m13.toNat = m12.toNat / 2 ^ 26 + (a.n4.toNat * b.n9.toNat + a.n5.toNat * b.n8.toNat + a.n6.toNat * b.n7.toNat + a.n7.toNat * b.n6.toNat + a.n8.toNat * b.n5.toNat + a.n9.toNat * b.n4.toNat) ∧ m13.toNat < 2 ^ 62 := by
    have p0 := prod_le1 a4 (b9.trans (by norm_num))
    have p1 := prod_le1 a5 b8
    have p2 := prod_le1 a6 b7
    have p3 := prod_le1 a7 b6
    have p4 := prod_le1 a8 b5
    have p5 := prod_le1 (a9.trans (by norm_num)) b4
    have l := m12.toNat_lt
    have e : m13.toNat = m12.toNat / 2 ^ 26 + (a.n4.toNat * b.n9.toNat + a.n5.toNat * b.n8.toNat + a.n6.toNat * b.n7.toNat + a.n7.toNat * b.n6.toNat + a.n8.toNat * b.n5.toNat + a.n9.toNat * b.n4.toNat) := by
      simp only [m13, UInt64.toNat_add, u64_mul32, u64_shr26, Nat.mod_add_mod]
      rw [Nat.mod_eq_of_lt (by omega)] <;> omega
    exact ⟨e, by rw [e]; omega⟩
  obtain ⟨e13, c13⟩ := e13
  clear_value m12
  have e14 : m14.toNat = m13.toNat / 2 ^ 26 + (a.n5.toNat * b.n9.toNat + a.n6.toNat * b.n8.toNat + a.n7.toNat * b.n7.toNat + a.n8.toNat * b.n6.toNat + a.n9.toNat * b.n5.toNat) ∧ m14.toNat < 2 ^ 62 := by
    have p0 := prod_le1 a5 (b9.trans (by norm_num))
    have p1 := prod_le1 a6 b8
    have p2 := prod_le1 a7 b7
    have p3 := prod_le1 a8 b6
    have p4 := prod_le1 (a9.trans (by norm_num)) b5
    have l := m13.toNat_lt
    have e : m14.toNat = m13.toNat / 2 ^ 26 + (a.n5.toNat * b.n9.toNat + a.n6.toNat * b.n8.toNat + a.n7.toNat * b.n7.toNat + a.n8.toNat * b.n6.toNat + a.n9.toNat * b.n5.toNat) := by
      simp only [m14, UInt64.toNat_add, u64_mul32, u64_shr26, Nat.mod_add_mod]
      rw [Nat.mod_eq_of_lt (by omega)] <;> omega
    exact ⟨e, by rw [e]; omega⟩
  obtain ⟨e14, c14⟩ := e14
  clear_value m13
  have e15 : m15.toNat = m14.toNat / 2 ^ 26 + (a.n6.toNat * b.n9.toNat + a.n7.toNat * b.n8.toNat + a.n8.toNat * b.n7.toNat + a.n9.toNat * b.n6.toNat) ∧ m15.toNat < 2 ^ 62 := by
    have p0 := prod_le1 a6 (b9.trans (by norm_num))
    have p1 := prod_le1 a7 b8
    have p2 := prod_le1 a8 b7
    have p3 := prod_le1 (a9.trans (by norm_num)) b6
    have l := m14.toNat_lt
    have e : m15.toNat = m14.toNat / 2 ^ 26 + (a.n6.toNat * b.n9.toNat + a.n7.toNat * b.n8.toNat + a.n8.toNat * b.n7.toNat + a.n9.toNat * b.n6.toNat) := by
      simp only [m15, UInt64.toNat_add, u64_mul32, u64_shr26, Nat.mod_add_mod]
      rw [Nat.mod_eq_of_lt (by omega)] <;> omega
    exact ⟨e, by rw [e]; omega⟩
  obtain ⟨e15, c15⟩ := e15
  clear_value m14
  have e16 : m16.toNat = m15.toNat / 2 ^ 26 + (a.n7.toNat * b.n9.toNat + a.n8.toNat * b.n8.toNat + a.n9.toNat * b.n7.toNat) ∧ m16.toNat < 2 ^ 62 := by
    have p0 := prod_le1 a7 (b9.trans (by norm_num))
    have p1 := prod_le1 a8 b8
    have p2 := prod_le1 (a9.trans (by norm_num)) b7
    have l := m15.toNat_lt
    have e : m16.toNat = m15.toNat / 2 ^ 26 + (a.n7.toNat * b.n9.toNat + a.n8.toNat * b.n8.toNat + a.n9.toNat * b.n7.toNat) := by
      simp only [m16, UInt64.toNat_add, u64_mul32, u64_shr26, Nat.mod_add_mod]
      rw [Nat.mod_eq_of_lt (by omega)] <;> omega
    exact ⟨e, by rw [e]; omega⟩
  obtain ⟨e16, c16⟩ := e16
  clear_value m15
  have e17 : m17.toNat = m16.toNat / 2 ^ 26 + (a.n8.toNat * b.n9.toNat + a.n9.toNat * b.n8.toNat) ∧ m17.toNat < 2 ^ 62 := by
    have p0 := prod_le2 a8 b9
    have p1 := prod_le2 b8 a9; rw [Nat.mul_comm] at p1
    have l := m16.toNat_lt
    have e : m17.toNat = m16.toNat / 2 ^ 26 + (a.n8.toNat * b.n9.toNat + a.n9.toNat * b.n8.toNat) := by
      simp only [m17, UInt64.toNat_add, u64_mul32, u64_shr26, Nat.mod_add_mod]
      rw [Nat.mod_eq_of_lt (by omega)] <;> omega
    exact ⟨e, by rw [e]; omega⟩
  obtain ⟨e17, c17⟩ := e17
  clear_value m16
  have e18 : m18.toNat = m17.toNat / 2 ^ 26 + (a.n9.toNat * b.n9.toNat) ∧ m18.toNat < 2 ^ 62 := by
    have p0 := prod_le3 a9 b9
    have l := m17.toNat_lt
    have e : m18.toNat = m17.toNat / 2 ^ 26 + (a.n9.toNat * b.n9.toNat) := by
      simp only [m18, UInt64.toNat_add, u64_mul32, u64_shr26, Nat.mod_add_mod]
      rw [Nat.mod_eq_of_lt (by omega)] <;> omega
    exact ⟨e, by rw [e]; omega⟩
  obtain ⟨e18, c18⟩ := e18
  clear_value m17
  have c17' : m17.toNat ≤ 2 ^ 57 := by
    have p0 := prod_le2 a8 b9
    have p1 := prod_le2 b8 a9; rw [Nat.mul_comm] at p1
    have l := m16.toNat_lt
    rw [e17]; omega
  have c18' : m18.toNat ≤ 2 ^ 50 + 2 ^ 31 := by
    have p0 := prod_le3 a9 b9
    rw [e18]; omega
  clear_value m18
  constructor
  · constructor <;> simp only [u64_mask26, u64_shr26]
    · exact Nat.mod_lt _ (by norm_num)
    · exact Nat.mod_lt _ (by norm_num)
    · exact Nat.mod_lt _ (by norm_num)
    · exact Nat.mod_lt _ (by norm_num)
    · exact Nat.mod_lt _ (by norm_num)
    · exact Nat.mod_lt _ (by norm_num)
    · exact Nat.mod_lt _ (by norm_num)
    · exact Nat.mod_lt _ (by norm_num)
    · exact Nat.mod_lt _ (by norm_num)
    · exact Nat.mod_lt _ (by norm_num)
    · exact Nat.mod_lt _ (by norm_num)
    · exact Nat.mod_lt _ (by norm_num)
    · exact Nat.mod_lt _ (by norm_num)
    · exact Nat.mod_lt _ (by norm_num)
    · exact Nat.mod_lt _ (by norm_num)
    · exact Nat.mod_lt _ (by norm_num)
    · exact Nat.mod_lt _ (by norm_num)
    · exact Nat.mod_lt _ (by norm_num)
    · exact Nat.mod_lt _ (by norm_num)
    · clear e0 e1 e2 e3 e4 e5 e6 e7 e8 e9 e10 e11 e12 e13 e14 e15 e16 e17 e18; omega
  · clear c0 c1 c2 c3 c4 c5 c6 c7 c8 c9 c10 c11 c12 c13 c14 c15 c16 c17 c18 c17' c18' a0 a1 a2 a3 a4 a5 a6 a7 a8 a9 b0 b1 b2 b3 b4 b5 b6 b7 b8 b9
    unfold Wide.val
    simp only [u64_mask26, u64_shr26]
    exact (chain_val e0 e1 e2 e3 e4 e5 e6 e7 e8 e9 e10 e11 e12 e13 e14 e15 e16 e17 e18).trans (by unfold FV.val; ring)

theorem sqTerms_spec {a : FV} (ha : a.Mag 8) : a.sqTerms.Ok ∧ a.sqTerms.val = a.val * a.val := by
  obtain ⟨a0, a1, a2, a3, a4, a5, a6, a7, a8, a9⟩ := ha
  unfold FV.sqTerms
  extract_lets m0 m1 m2 m3 m4 m5 m6 m7 m8 m9 m10 m11 m12 m13 m14 m15 m16 m17 m18
  have e0 : m0.toNat = a.n0.toNat * a.n0.toNat ∧ m0.toNat < 2 ^ 62 := by
    have p0 := prod_le1 a0 a0
    have e : m0.toNat = a.n0.toNat * a.n0.toNat := by
      simp only [m0, UInt64.toNat_add, u64_mul32, u64_two_mul32, u64_shr26, Nat.mod_add_mod, Nat.add_mod_mod]
      try rfl
    exact ⟨e, by rw [e]; omega⟩
  obtain ⟨e0, c0⟩ := e0
  have e1 : m1.toNat = m0.toNat / 2 ^ 26 + (2 * (a.n0.toNat * a.n1.toNat)) ∧ m1.toNat < 2 ^ 62 := by
    have p0 := prod_le1 a0 a1
    have l := m0.toNat_lt
    have e : m1.toNat = m0.toNat / 2 ^ 26 + (2 * (a.n0.toNat * a.n1.toNat)) := by
      simp only [m1, UInt64.toNat_add, u64_mul32, u64_two_mul32, u64_shr26, Nat.mod_add_mod, Nat.add_mod_mod]
      rw [Nat.mod_eq_of_lt (by omega)] <;> omega
    exact ⟨e, by rw [e]; omega⟩
  obtain ⟨e1, c1⟩ := e1
  clear_value m0
  have e2 : m2.toNat = m1.toNat / 2 ^ 26 + (2 * (a.n0.toNat * a.n2.toNat) + a.n1.toNat * a.n1.toNat) ∧ m2.toNat < 2 ^ 62 := by
    have p0 := prod_le1 a0 a2
    have p1 := prod_le1 a1 a1
    have l := m1.toNat_lt
    have e : m2.toNat = m1.toNat / 2 ^ 26 + (2 * (a.n0.toNat * a.n2.toNat) + a.n1.toNat * a.n1.toNat) := by
      simp only [m2, UInt64.toNat_add, u64_mul32, u64_two_mul32, u64_shr26, Nat.mod_add_mod, Nat.add_mod_mod]
      rw [Nat.mod_eq_of_lt (by omega)] <;> omega
    exact ⟨e, by rw [e]; omega⟩
  obtain ⟨e2, c2⟩ := e2
  clear_value m1
  have e3 : m3.toNat = m2.toNat / 2 ^ 26 + (2 * (a.n0.toNat * a.n3.toNat) + 2 * (a.n1.toNat * a.n2.toNat)) ∧ m3.toNat < 2 ^ 62 := by
    have p0 := prod_le1 a0 a3
    have p1 := prod_le1 a1 a2
    have l := m2.toNat_lt
    have e : m3.toNat = m2.toNat / 2 ^ 26 + (2 * (a.n0.toNat * a.n3.toNat) + 2 * (a.n1.toNat * a.n2.toNat)) := by
      simp only [m3, UInt64.toNat_add, u64_mul32, u64_two_mul32, u64_shr26, Nat.mod_add_mod, Nat.add_mod_mod]
      rw [Nat.mod_eq_of_lt (by omega)] <;> omega
    exact ⟨e, by rw [e]; omega⟩
  obtain ⟨e3, c3⟩ := e3
  clear_value m2
  have e4 : m4.toNat = m3.toNat / 2 ^ 26 + (2 * (a.n0.toNat * a.n4.toNat) + 2 * (a.n1.toNat * a.n3.toNat) + a.n2.toNat * a.n2.toNat) ∧ m4.toNat < 2 ^ 62 := by
    have p0 := prod_le1 a0 a4
    have p1 := prod_le1 a1 a3
    have p2 := prod_le1 a2 a2
    have l := m3.toNat_lt
    have e : m4.toNat = m3.toNat / 2 ^ 26 + (2 * (a.n0.toNat * a.n4.toNat) + 2 * (a.n1.toNat * a.n3.toNat) + a.n2.toNat * a.n2.toNat) := by
      simp only [m4, UInt64.toNat_add, u64_mul32, u64_two_mul32, u64_shr26, Nat.mod_add_mod, Nat.add_mod_mod]
      rw [Nat.mod_eq_of_lt (by omega)] <;> omega
    exact ⟨e, by rw [e]; omega⟩
  obtain ⟨e4, c4⟩ := e4
  clear_value m3
  have e5 : m5.toNat = m4.toNat / 2 ^ 26 + (2 * (a.n0.toNat * a.n5.toNat) + 2 * (a.n1.toNat * a.n4.toNat) + 2 * (a.n2.toNat * a.n3.toNat)) ∧ m5.toNat < 2 ^ 62 := by
    have p0 := prod_le1 a0 a5
    have p1 := prod_le1 a1 a4
    have p2 := prod_le1 a2 a3
    have l := m4.toNat_lt
    have e : m5.toNat = m4.toNat / 2 ^ 26 + (2 * (a.n0.toNat * a.n5.toNat) + 2 * (a.n1.toNat * a.n4.toNat) + 2 * (a.n2.toNat * a.n3.toNat)) := by
      simp only [m5, UInt64.toNat_add, u64_mul32, u64_two_mul32, u64_shr26, Nat.mod_add_mod, Nat.add_mod_mod]
      rw [Nat.mod_eq_of_lt (by omega)] <;> omega
    exact ⟨e, by rw [e]; omega⟩
  obtain ⟨e5, c5⟩ := e5
  clear_value m4
  have e6 : m6.toNat = m5.toNat / 2 ^ 26 + (2 * (a.n0.toNat * a.n6.toNat) + 2 * (a.n1.toNat * a.n5.toNat) + 2 * (a.n2.toNat * a.n4.toNat) + a.n3.toNat * a.n3.toNat) ∧ m6.toNat < 2 ^ 62 := by
    have p0 := prod_le1 a0 a6
    have p1 := prod_le1 a1 a5
    have p2 := prod_le1 a2 a4
    have p3 := prod_le1 a3 a3
    have l := m5.toNat_lt
    have e : m6.toNat = m5.toNat / 2 ^ 26 + (2 * (a.n0.toNat * a.n6.toNat) + 2 * (a.n1.toNat * a.n5.toNat) + 2 * (a.n2.toNat * a.n4.toNat) + a.n3.toNat * a.n3.toNat) := by
      simp only [m6, UInt64.toNat_add, u64_mul32, u64_two_mul32, u64_shr26, Nat.mod_add_mod, Nat.add_mod_mod]
      rw [Nat.mod_eq_of_lt (by omega)] <;> omega
    exact ⟨e, by rw [e]; omega⟩
  obtain ⟨e6, c6⟩ := e6
  clear_value m5
  have e7 : m7.toNat = m6.toNat / 2 ^ 26 + (2 * (a.n0.toNat * a.n7.toNat) + 2 * (a.n1.toNat * a.n6.toNat) + 2 * (a.n2.toNat * a.n5.toNat) + 2 * (a.n3.toNat * a.n4.toNat)) ∧ m7.toNat < 2 ^ 62 := by
    have p0 := prod_le1 a0 a7
    have p1 := prod_le1 a1 a6
    have p2 := prod_le1 a2 a5
    have p3 := prod_le1 a3 a4
    have l := m6.toNat_lt
    have e : m7.toNat = m6.toNat / 2 ^ 26 + (2 * (a.n0.toNat * a.n7.toNat) + 2 * (a.n1.toNat * a.n6.toNat) + 2 * (a.n2.toNat * a.n5.toNat) + 2 * (a.n3.toNat * a.n4.toNat)) := by
      simp only [m7, UInt64.toNat_add, u64_mul32, u64_two_mul32, u64_shr26, Nat.mod_add_mod, Nat.add_mod_mod]
      rw [Nat.mod_eq_of_lt (by omega)] <;> omega
    exact ⟨e, by rw [e]; omega⟩
  obtain ⟨e7, c7⟩ := e7
  clear_value m6
  have e8 : m8.toNat = m7.toNat / 2 ^ 26 + (2 * (a.n0.toNat * a.n8.toNat) + 2 * (a.n1.toNat * a.n7.toNat) + 2 * (a.n2.toNat * a.n6.toNat) + 2 * (a.n3.toNat * a.n5.toNat) + a.n4.toNat * a.n4.toNat) ∧ m8.toNat < 2 ^ 62 := by
    have p0 := prod_le1 a0 a8
    have p1 := prod_le1 a1 a7
    have p2 := prod_le1 a2 a6
    have p3 := prod_le1 a3 a5
    have p4 := prod_le1 a4 a4
    have l := m7.toNat_lt
    have e : m8.toNat = m7.toNat / 2 ^ 26 + (2 * (a.n0.toNat * a.n8.toNat) + 2 * (a.n1.toNat * a.n7.toNat) + 2 * (a.n2.toNat * a.n6.toNat) + 2 * (a.n3.toNat * a.n5.toNat) + a.n4.toNat * a.n4.toNat) := by
      simp only [m8, UInt64.toNat_add, u64_mul32, u64_two_mul32, u64_shr26, Nat.mod_add_mod, Nat.add_mod_mod]
      rw [Nat.mod_eq_of_lt (by omega)] <;> omega
    exact ⟨e, by rw [e]; omega⟩
  obtain ⟨e8, c8⟩ := e8
  clear_value m7
  have e9 : m9.toNat = m8.toNat / 2 ^ 26 + (2 * (a.n0.toNat * a.n9.toNat) + 2 * (a.n1.toNat * a.n8.toNat) + 2 * (a.n2.toNat * a.n7.toNat) + 2 * (a.n3.toNat * a.n6.toNat) + 2 * (a.n4.toNat * a.n5.toNat)) ∧ m9.toNat < 2 ^ 62 := by
    have p0 := prod_le1 a0 (a9.trans (by norm_num))
    have p1 := prod_le1 a1 a8
    have p2 := prod_le1 a2 a7
    have p3 := prod_le1 a3 a6
    have p4 := prod_le1 a4 a5
    have l := m8.toNat_lt
    have e : m9.toNat = m8.toNat / 2 ^ 26 + (2 * (a.n0.toNat * a.n9.toNat) + 2 * (a.n1.toNat * a.n8.toNat) + 2 * (a.n2.toNat * a.n7.toNat) + 2 * (a.n3.toNat * a.n6.toNat) + 2 * (a.n4.toNat * a.n5.toNat)) := by
      simp only [m9, UInt64.toNat_add, u64_mul32, u64_two_mul32, u64_shr26, Nat.mod_add_mod, Nat.add_mod_mod]
      rw [Nat.mod_eq_of_lt (by omega)] <;> omega
    exact ⟨e, by rw [e]; omega⟩
  obtain ⟨e9, c9⟩ := e9
  clear_value m8
  have e10 : m10.toNat = m9.toNat / 2 ^ 26 + (2 * (a.n1.toNat * a.n9.toNat) + 2 * (a.n2.toNat * a.n8.toNat) + 2 * (a.n3.toNat * a.n7.toNat) + 2 * (a.n4.toNat * a.n6.toNat) + a.n5.toNat * a.n5.toNat) ∧ m10.toNat < 2 ^ 62 := by
    have p0 := prod_le1 a1 (a9.trans (by norm_num))
    have p1 := prod_le1 a2 a8
    have p2 := prod_le1 a3 a7
    have p3 := prod_le1 a4 a6
    have p4 := prod_le1 a5 a5
    have l := m9.toNat_lt
    have e : m10.toNat = m9.toNat / 2 ^ 26 + (2 * (a.n1.toNat * a.n9.toNat) + 2 * (a.n2.toNat * a.n8.toNat) + 2 * (a.n3.toNat * a.n7.toNat) + 2 * (a.n4.toNat * a.n6.toNat) + a.n5.toNat * a.n5.toNat) := by
      simp only [m10, UInt64.toNat_add, u64_mul32, u64_two_mul32, u64_shr26, Nat.mod_add_mod, Nat.add_mod_mod]
      rw [Nat.mod_eq_of_lt (by omega)] <;> omega
    exact ⟨e, by rw [e]; omega⟩
  obtain ⟨e10, c10⟩ := e10
  clear_value m9
  have e11 : m11.toNat = m10.toNat / 2 ^ 26 + (2 * (a.n2.toNat * a.n9.toNat) + 2 * (a.n3.toNat * a.n8.toNat) + 2 * (a.n4.toNat * a.n7.toNat) + 2 * (a.n5.toNat * a.n6.toNat)) ∧ m11.toNat < 2 ^ 62 := by
    have p0 := prod_le1 a2 (a9.trans (by norm_num))
    have p1 := prod_le1 a3 a8
    have p2 := prod_le1 a4 a7
    have p3 := prod_le1 a5 a6
    have l := m10.toNat_lt
    have e : m11.toNat = m10.toNat / 2 ^ 26 + (2 * (a.n2.toNat * a.n9.toNat) + 2 * (a.n3.toNat * a.n8.toNat) + 2 * (a.n4.toNat * a.n7.toNat) + 2 * (a.n5.toNat * a.n6.toNat)) := by
      simp only [m11, UInt64.toNat_add, u64_mul32, u64_two_mul32, u64_shr26, Nat.mod_add_mod, Nat.add_mod_mod]
      rw [Nat.mod_eq_of_lt (by omega)] <;> omega
    exact ⟨e, by rw [e]; omega⟩
  obtain ⟨e11, c11⟩ := e11
  clear_value m10
  have e12 : m12.toNat = m11.toNat / 2 ^ 26 + (2 * (a.n3.toNat * a.n9.toNat) + 2 * (a.n4.toNat * a.n8.toNat) + 2 * (a.n5.toNat * a.n7.toNat) + a.n6.toNat * a.n6.toNat) ∧ m12.toNat < 2 ^ 62 := by
    have p0 := prod_le1 a3 (a9.trans (by norm_num))
    have p1 := prod_le1 a4 a8
    have p2 := prod_le1 a5 a7
    have p3 := prod_le1 a6 a6
    have l := m11.toNat_lt
    have e : m12.toNat = m11.toNat / 2 ^ 26 + (2 * (a.n3.toNat * a.n9.toNat) + 2 * (a.n4.toNat * a.n8.toNat) + 2 * (a.n5.toNat * a.n7.toNat) + a.n6.toNat * a.n6.toNat) := by
      simp only [m12, UInt64.toNat_add, u64_mul32, u64_two_mul32, u64_shr26, Nat.mod_add_mod, Nat.add_mod_mod]
      rw [Nat.mod_eq_of_lt (by omega)] <;> omega
    exact ⟨e, by rw [e]; omega⟩
  obtain ⟨e12, c12⟩ := e12
  clear_value m11
  have e13 : m13.toNat = m12.toNat / 2 ^ 26 + (2 * (a.n4.toNat * a.n9.toNat) + 2 * (a.n5.toNat * a.n8.toNat) + 2 * (a.n6.toNat * a.n7.toNat)) ∧ m13.toNat < 2 ^ 62 := by
    have p0 := prod_le1 a4 (a9.trans (by norm_num))
    have p1 := prod_le1 a5 a8
    have p2 := prod_le1 a6 a7
    have l := m12.toNat_lt
    have e : m13.toNat = m12.toNat / 2 ^ 26 + (2 * (a.n4.toNat * a.n9.toNat) + 2 * (a.n5.toNat * a.n8.toNat) + 2 * (a.n6.toNat * a.n7.toNat)) := by
      simp only [m13, UInt64.toNat_add, u64_mul32, u64_two_mul32, u64_shr26, Nat.mod_add_mod, Nat.add_mod_mod]
      rw [Nat.mod_eq_of_lt (by omega)] <;> omega
    exact ⟨e, by rw [e]; omega⟩
  obtain ⟨e13, c13⟩ := e13
  clear_value m12
  have e14 : m14.toNat = m13.toNat / 2 ^ 26 + (2 * (a.n5.toNat * a.n9.toNat) + 2 * (a.n6.toNat * a.n8.toNat) + a.n7.toNat * a.n7.toNat) ∧ m14.toNat < 2 ^ 62 := by
    have p0 := prod_le1 a5 (a9.trans (by norm_num))
    have p1 := prod_le1 a6 a8
    have p2 := prod_le1 a7 a7
    have l := m13.toNat_lt
    have e : m14.toNat = m13.toNat / 2 ^ 26 + (2 * (a.n5.toNat * a.n9.toNat) + 2 * (a.n6.toNat * a.n8.toNat) + a.n7.toNat * a.n7.toNat) := by
      simp only [m14, UInt64.toNat_add, u64_mul32, u64_two_mul32, u64_shr26, Nat.mod_add_mod, Nat.add_mod_mod]
      rw [Nat.mod_eq_of_lt (by omega)] <;> omega
    exact ⟨e, by rw [e]; omega⟩
  obtain ⟨e14, c14⟩ := e14
  clear_value m13
  have e15 : m15.toNat = m14.toNat / 2 ^ 26 + (2 * (a.n6.toNat * a.n9.toNat) + 2 * (a.n7.toNat * a.n8.toNat)) ∧ m15.toNat < 2 ^ 62 := by
    have p0 := prod_le1 a6 (a9.trans (by norm_num))
    have p1 := prod_le1 a7 a8
    have l := m14.toNat_lt
    have e : m15.toNat = m14.toNat / 2 ^ 26 + (2 * (a.n6.toNat * a.n9.toNat) + 2 * (a.n7.toNat * a.n8.toNat)) := by
      simp only [m15, UInt64.toNat_add, u64_mul32, u64_two_mul32, u64_shr26, Nat.mod_add_mod, Nat.add_mod_mod]
      rw [Nat.mod_eq_of_lt (by omega)] <;> omega
    exact ⟨e, by rw [e]; omega⟩
  obtain ⟨e15, c15⟩ := e15
  clear_value m14
  have e16 : m16.toNat = m15.toNat / 2 ^ 26 + (2 * (a.n7.toNat * a.n9.toNat) + a.n8.toNat * a.n8.toNat) ∧ m16.toNat < 2 ^ 62 := by
    have p0 := prod_le1 a7 (a9.trans (by norm_num))
    have p1 := prod_le1 a8 a8
    have l := m15.toNat_lt
    have e : m16.toNat = m15.toNat / 2 ^ 26 + (2 * (a.n7.toNat * a.n9.toNat) + a.n8.toNat * a.n8.toNat) := by
      simp only [m16, UInt64.toNat_add, u64_mul32, u64_two_mul32, u64_shr26, Nat.mod_add_mod, Nat.add_mod_mod]
      rw [Nat.mod_eq_of_lt (by omega)] <;> omega
    exact ⟨e, by rw [e]; omega⟩
  obtain ⟨e16, c16⟩ := e16
  clear_value m15
  have e17 : m17.toNat = m16.toNat / 2 ^ 26 + (2 * (a.n8.toNat * a.n9.toNat)) ∧ m17.toNat < 2 ^ 62 := by
    have p0 := prod_le2 a8 a9
    have l := m16.toNat_lt
    have e : m17.toNat = m16.toNat / 2 ^ 26 + (2 * (a.n8.toNat * a.n9.toNat)) := by
      simp only [m17, UInt64.toNat_add, u64_mul32, u64_two_mul32, u64_shr26, Nat.mod_add_mod, Nat.add_mod_mod]
      rw [Nat.mod_eq_of_lt (by omega)] <;> omega
    exact ⟨e, by rw [e]; omega⟩
  obtain ⟨e17, c17⟩ := e17
  clear_value m16
  have e18 : m18.toNat = m17.toNat / 2 ^ 26 + (a.n9.toNat * a.n9.toNat) ∧ m18.toNat < 2 ^ 62 := by
    have p0 := prod_le3 a9 a9
    have l := m17.toNat_lt
    have e : m18.toNat = m17.toNat / 2 ^ 26 + (a.n9.toNat * a.n9.toNat) := by
      simp only [m18, UInt64.toNat_add, u64_mul32, u64_two_mul32, u64_shr26, Nat.mod_add_mod, Nat.add_mod_mod]
      rw [Nat.mod_eq_of_lt (by omega)] <;> omega
    exact ⟨e, by rw [e]; omega⟩
  obtain ⟨e18, c18⟩ := e18
  clear_value m17
  have c17' : m17.toNat ≤ 2 ^ 57 := by
    have p0 := prod_le2 a8 a9
    have l := m16.toNat_lt
    rw [e17]; omega
  have c18' : m18.toNat ≤ 2 ^ 50 + 2 ^ 31 := by
    have p0 := prod_le3 a9 a9
    rw [e18]; omega
  clear_value m18
  constructor
  · constructor <;> simp only [u64_mask26, u64_shr26]
    · exact Nat.mod_lt _ (by norm_num)
    · exact Nat.mod_lt _ (by norm_num)
    · exact Nat.mod_lt _ (by norm_num)
    · exact Nat.mod_lt _ (by norm_num)
    · exact Nat.mod_lt _ (by norm_num)
    · exact Nat.mod_lt _ (by norm_num)
    · exact Nat.mod_lt _ (by norm_num)
    · exact Nat.mod_lt _ (by norm_num)
    · exact Nat.mod_lt _ (by norm_num)
    · exact Nat.mod_lt _ (by norm_num)
    · exact Nat.mod_lt _ (by norm_num)
    · exact Nat.mod_lt _ (by norm_num)
    · exact Nat.mod_lt _ (by norm_num)
    · exact Nat.mod_lt _ (by norm_num)
    · exact Nat.mod_lt _ (by norm_num)
    · exact Nat.mod_lt _ (by norm_num)
    · exact Nat.mod_lt _ (by norm_num)
    · exact Nat.mod_lt _ (by norm_num)
    · exact Nat.mod_lt _ (by norm_num)
    · clear e0 e1 e2 e3 e4 e5 e6 e7 e8 e9 e10 e11 e12 e13 e14 e15 e16 e17 e18; omega
  · clear c0 c1 c2 c3 c4 c5 c6 c7 c8 c9 c10 c11 c12 c13 c14 c15 c16 c17 c18 c17' c18' a0 a1 a2 a3 a4 a5 a6 a7 a8 a9
    unfold Wide.val
    simp only [u64_mask26, u64_shr26]
    exact (chain_val e0 e1 e2 e3 e4 e5 e6 e7 e8 e9 e10 e11 e12 e13 e14 e15 e16 e17 e18).trans (by unfold FV.val; ring)

end Tss.Secp
