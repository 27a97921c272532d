import Verif.Lemmas.SecpMul
/-
The reduction of a product modulo P, and what Mul2 and SquareVal compute.
-/
set_option exponentiation.threshold 600
namespace Tss.Secp
open Tss

/-- The arithmetic of the reduction: the m's are the carried columns, M the part above 2^256. -/
theorem reduce_num {t0 t1 t2 t3 t4 t5 t6 t7 t8 t9 t10 t11 t12 t13 t14 t15 t16 t17 t18 t19 m0 m1 m2 m3 m4 m5 m6 m7 m8 m9 M d0 d1 : Nat}
    (e0 : m0 = t0 + t10 * 15632)
    (e1 : m1 = m0 / 2 ^ 26 + t1 + t10 * 1024 + t11 * 15632)
    (e2 : m2 = m1 / 2 ^ 26 + t2 + t11 * 1024 + t12 * 15632)
    (e3 : m3 = m2 / 2 ^ 26 + t3 + t12 * 1024 + t13 * 15632)
    (e4 : m4 = m3 / 2 ^ 26 + t4 + t13 * 1024 + t14 * 15632)
    (e5 : m5 = m4 / 2 ^ 26 + t5 + t14 * 1024 + t15 * 15632)
    (e6 : m6 = m5 / 2 ^ 26 + t6 + t15 * 1024 + t16 * 15632)
    (e7 : m7 = m6 / 2 ^ 26 + t7 + t16 * 1024 + t17 * 15632)
    (e8 : m8 = m7 / 2 ^ 26 + t8 + t17 * 1024 + t18 * 15632)
    (e9 : m9 = m8 / 2 ^ 26 + t9 + t18 * 1024 + t19 * 68719492368)
    (eM : M = m9 / 2 ^ 22) (f0 : d0 = m0 % 2 ^ 26 + M * 977) (f1 : d1 = d0 / 2 ^ 26 + m1 % 2 ^ 26 + M * 64) :
    d0 % 2 ^ 26 + d1 % 2 ^ 26 * 2 ^ 26 + (d1 / 2 ^ 26 + m2 % 2 ^ 26) * 2 ^ 52 + m3 % 2 ^ 26 * 2 ^ 78 + m4 % 2 ^ 26 * 2 ^ 104 + m5 % 2 ^ 26 * 2 ^ 130 + m6 % 2 ^ 26 * 2 ^ 156 + m7 % 2 ^ 26 * 2 ^ 182 + m8 % 2 ^ 26 * 2 ^ 208 + m9 % 2 ^ 22 * 2 ^ 234 +
      (16 * (t10 + t11 * 2 ^ 26 + t12 * 2 ^ 52 + t13 * 2 ^ 78 + t14 * 2 ^ 104 + t15 * 2 ^ 130 + t16 * 2 ^ 156 + t17 * 2 ^ 182 + t18 * 2 ^ 208 + t19 * 2 ^ 234) + M) * p = t0 + t1 * 2 ^ 26 + t2 * 2 ^ 52 + t3 * 2 ^ 78 + t4 * 2 ^ 104 + t5 * 2 ^ 130 + t6 * 2 ^ 156 + t7 * 2 ^ 182 + t8 * 2 ^ 208 + t9 * 2 ^ 234 + t10 * 2 ^ 260 + t11 * 2 ^ 286 + t12 * 2 ^ 312 + t13 * 2 ^ 338 + t14 * 2 ^ 364 + t15 * 2 ^ 390 + t16 * 2 ^ 416 + t17 * 2 ^ 442 + t18 * 2 ^ 468 + t19 * 2 ^ 494 := by
  have c0 := carry (m := m0) rfl rfl
  have c1 := carry (m := m1) rfl rfl
  have c2 := carry (m := m2) rfl rfl
  have c3 := carry (m := m3) rfl rfl
  have c4 := carry (m := m4) rfl rfl
  have c5 := carry (m := m5) rfl rfl
  have c6 := carry (m := m6) rfl rfl
  have c7 := carry (m := m7) rfl rfl
  have c8 := carry (m := m8) rfl rfl
  have c9 : m9 = M * 2 ^ 22 + m9 % 2 ^ 22 := by rw [eM]; omega
  have g0 := carry (m := d0) rfl rfl
  have g1 := carry (m := d1) rfl rfl
  have hp : (p : ℤ) = 2 ^ 256 - 2 ^ 32 - 977 := by norm_num [p]
  clear eM
  generalize m0 / 2 ^ 26 = q0 at *
  generalize m0 % 2 ^ 26 = r0 at *
  generalize m1 / 2 ^ 26 = q1 at *
  generalize m1 % 2 ^ 26 = r1 at *
  generalize m2 / 2 ^ 26 = q2 at *
  generalize m2 % 2 ^ 26 = r2 at *
  generalize m3 / 2 ^ 26 = q3 at *
  generalize m3 % 2 ^ 26 = r3 at *
  generalize m4 / 2 ^ 26 = q4 at *
  generalize m4 % 2 ^ 26 = r4 at *
  generalize m5 / 2 ^ 26 = q5 at *
  generalize m5 % 2 ^ 26 = r5 at *
  generalize m6 / 2 ^ 26 = q6 at *
  generalize m6 % 2 ^ 26 = r6 at *
  generalize m7 / 2 ^ 26 = q7 at *
  generalize m7 % 2 ^ 26 = r7 at *
  generalize m8 / 2 ^ 26 = q8 at *
  generalize m8 % 2 ^ 26 = r8 at *
  generalize m9 % 2 ^ 22 = r9 at *
  generalize d0 / 2 ^ 26 = x0 at *
  generalize d0 % 2 ^ 26 = y0 at *
  generalize d1 / 2 ^ 26 = x1 at *
  generalize d1 % 2 ^ 26 = y1 at *
  zify at *
  rw [hp]
  linear_combination 2 ^ 0 * (e0 - c0) + 2 ^ 26 * (e1 - c1) + 2 ^ 52 * (e2 - c2) + 2 ^ 78 * (e3 - c3) + 2 ^ 104 * (e4 - c4) + 2 ^ 130 * (e5 - c5) + 2 ^ 156 * (e6 - c6) + 2 ^ 182 * (e7 - c7) + 2 ^ 208 * (e8 - c8) + 2 ^ 234 * (e9 - c9) + (f0 - g0) + 2 ^ 26 * (f1 - g1)

theorem red_first (x y : UInt64) (hx : x.toNat < 2 ^ 26) (hy : y.toNat < 2 ^ 26) :
    (x + y * 15632).toNat = x.toNat + y.toNat * 15632 ∧ (x + y * 15632).toNat < 2 ^ 50 := by
  have e : (x + y * 15632).toNat = x.toNat + y.toNat * 15632 := by
    simp only [UInt64.toNat_add, UInt64.toNat_mul, UInt64.reduceToNat, Nat.add_mod_mod]
    exact Nat.mod_eq_of_lt (by omega)
  exact ⟨e, by rw [e]; omega⟩

theorem red_step (m x y z : UInt64) (hm : m.toNat < 2 ^ 50) (hx : x.toNat < 2 ^ 26) (hy : y.toNat < 2 ^ 26)
    (hz : z.toNat < 2 ^ 26) :
    ((m >>> 26) + x + y * 1024 + z * 15632).toNat = m.toNat / 2 ^ 26 + x.toNat + y.toNat * 1024 + z.toNat * 15632 ∧
    ((m >>> 26) + x + y * 1024 + z * 15632).toNat < 2 ^ 50 := by
  have e : ((m >>> 26) + x + y * 1024 + z * 15632).toNat =
      m.toNat / 2 ^ 26 + x.toNat + y.toNat * 1024 + z.toNat * 15632 := by
    simp only [UInt64.toNat_add, UInt64.toNat_mul, u64_shr26, UInt64.reduceToNat, Nat.mod_add_mod, Nat.add_mod_mod]
    exact Nat.mod_eq_of_lt (by omega)
  exact ⟨e, by rw [e]; omega⟩

theorem red_last (m x y z : UInt64) (hm : m.toNat < 2 ^ 50) (hx : x.toNat < 2 ^ 26) (hy : y.toNat < 2 ^ 26)
    (hz : z.toNat ≤ 2 ^ 24 + 2 ^ 5) :
    ((m >>> 26) + x + y * 1024 + z * 68719492368).toNat =
      m.toNat / 2 ^ 26 + x.toNat + y.toNat * 1024 + z.toNat * 68719492368 ∧
    ((m >>> 26) + x + y * 1024 + z * 68719492368).toNat / 2 ^ 22 ≤ 2 ^ 38 + 2 ^ 20 := by
  have e : ((m >>> 26) + x + y * 1024 + z * 68719492368).toNat =
      m.toNat / 2 ^ 26 + x.toNat + y.toNat * 1024 + z.toNat * 68719492368 := by
    simp only [UInt64.toNat_add, UInt64.toNat_mul, u64_shr26, UInt64.reduceToNat, Nat.mod_add_mod, Nat.add_mod_mod]
    exact Nat.mod_eq_of_lt (by omega)
  exact ⟨e, by rw [e]; omega⟩

theorem red_d0 (x M : UInt64) (hx : x.toNat < 2 ^ 26) (hM : M.toNat ≤ 2 ^ 38 + 2 ^ 20) :
    (x + M * 977).toNat = x.toNat + M.toNat * 977 ∧ (x + M * 977).toNat < 2 ^ 49 := by
  have e : (x + M * 977).toNat = x.toNat + M.toNat * 977 := by
    simp only [UInt64.toNat_add, UInt64.toNat_mul, UInt64.reduceToNat, Nat.add_mod_mod]
    exact Nat.mod_eq_of_lt (by omega)
  exact ⟨e, by rw [e]; omega⟩

theorem red_d1 (d x M : UInt64) (hd : d.toNat < 2 ^ 49) (hx : x.toNat < 2 ^ 26) (hM : M.toNat ≤ 2 ^ 38 + 2 ^ 20) :
    ((d >>> 26) + x + M * 64).toNat = d.toNat / 2 ^ 26 + x.toNat + M.toNat * 64 ∧
    ((d >>> 26) + x + M * 64).toNat / 2 ^ 26 ≤ 2 ^ 18 + 2 ^ 10 := by
  have e : ((d >>> 26) + x + M * 64).toNat = d.toNat / 2 ^ 26 + x.toNat + M.toNat * 64 := by
    simp only [UInt64.toNat_add, UInt64.toNat_mul, u64_shr26, UInt64.reduceToNat, Nat.mod_add_mod, Nat.add_mod_mod]
    exact Nat.mod_eq_of_lt (by omega)
  exact ⟨e, by rw [e]; omega⟩

theorem red_narrow (x : UInt64) (h : x.toNat < 2 ^ 26) : x.toUInt32.toNat = x.toNat := by
  rw [u64_to32]; exact Nat.mod_eq_of_lt (by omega)

theorem red_mask (x : UInt64) : (x &&& 0x3ffffff).toUInt32.toNat = x.toNat % 2 ^ 26 := by
  rw [red_narrow _ (by rw [u64_mask26]; exact Nat.mod_lt _ (by norm_num)), u64_mask26]

theorem red_n2 (d x : UInt64) (hd : d.toNat / 2 ^ 26 ≤ 2 ^ 18 + 2 ^ 10) (hx : x.toNat < 2 ^ 26) :
    ((d >>> 26) + x).toUInt32.toNat = d.toNat / 2 ^ 26 + x.toNat := by
  rw [u64_to32, UInt64.toNat_add, u64_shr26]; omega

theorem reduce_spec {t : Wide} (h : t.Ok) : t.reduce.Mag 1 ∧ ∃ k, t.reduce.val + k * p = t.val := by
  obtain ⟨h0, h1, h2, h3, h4, h5, h6, h7, h8, h9, h10, h11, h12, h13, h14, h15, h16, h17, h18, h19⟩ := h
  unfold Wide.reduce
  extract_lets m0 r0 m1 r1 m2 r2 m3 r3 m4 r4 m5 r5 m6 r6 m7 r7 m8 r8 m9 r9 M d0 d1
  obtain ⟨e0, b0⟩ : m0.toNat = _ ∧ _ := red_first t.t0 t.t10 h0 h10
  obtain ⟨e1, b1⟩ : m1.toNat = _ ∧ _ := red_step m0 t.t1 t.t10 t.t11 b0 h1 h10 h11
  obtain ⟨e2, b2⟩ : m2.toNat = _ ∧ _ := red_step m1 t.t2 t.t11 t.t12 b1 h2 h11 h12
  obtain ⟨e3, b3⟩ : m3.toNat = _ ∧ _ := red_step m2 t.t3 t.t12 t.t13 b2 h3 h12 h13
  obtain ⟨e4, b4⟩ : m4.toNat = _ ∧ _ := red_step m3 t.t4 t.t13 t.t14 b3 h4 h13 h14
  obtain ⟨e5, b5⟩ : m5.toNat = _ ∧ _ := red_step m4 t.t5 t.t14 t.t15 b4 h5 h14 h15
  obtain ⟨e6, b6⟩ : m6.toNat = _ ∧ _ := red_step m5 t.t6 t.t15 t.t16 b5 h6 h15 h16
  obtain ⟨e7, b7⟩ : m7.toNat = _ ∧ _ := red_step m6 t.t7 t.t16 t.t17 b6 h7 h16 h17
  obtain ⟨e8, b8⟩ : m8.toNat = _ ∧ _ := red_step m7 t.t8 t.t17 t.t18 b7 h8 h17 h18
  obtain ⟨e9, b9⟩ : m9.toNat = _ ∧ _ := red_last m8 t.t9 t.t18 t.t19 b8 h9 h18 h19
  have s0 : r0.toNat = m0.toNat % 2 ^ 26 := u64_mask26 _
  have l0 : r0.toNat < 2 ^ 26 := by rw [s0]; exact Nat.mod_lt _ (by norm_num)
  have s1 : r1.toNat = m1.toNat % 2 ^ 26 := u64_mask26 _
  have l1 : r1.toNat < 2 ^ 26 := by rw [s1]; exact Nat.mod_lt _ (by norm_num)
  have s2 : r2.toNat = m2.toNat % 2 ^ 26 := u64_mask26 _
  have l2 : r2.toNat < 2 ^ 26 := by rw [s2]; exact Nat.mod_lt _ (by norm_num)
  have s3 : r3.toNat = m3.toNat % 2 ^ 26 := u64_mask26 _
  have l3 : r3.toNat < 2 ^ 26 := by rw [s3]; exact Nat.mod_lt _ (by norm_num)
  have s4 : r4.toNat = m4.toNat % 2 ^ 26 := u64_mask26 _
  have l4 : r4.toNat < 2 ^ 26 := by rw [s4]; exact Nat.mod_lt _ (by norm_num)
  have s5 : r5.toNat = m5.toNat % 2 ^ 26 := u64_mask26 _
  have l5 : r5.toNat < 2 ^ 26 := by rw [s5]; exact Nat.mod_lt _ (by norm_num)
  have s6 : r6.toNat = m6.toNat % 2 ^ 26 := u64_mask26 _
  have l6 : r6.toNat < 2 ^ 26 := by rw [s6]; exact Nat.mod_lt _ (by norm_num)
  have s7 : r7.toNat = m7.toNat % 2 ^ 26 := u64_mask26 _
  have l7 : r7.toNat < 2 ^ 26 := by rw [s7]; exact Nat.mod_lt _ (by norm_num)
  have s8 : r8.toNat = m8.toNat % 2 ^ 26 := u64_mask26 _
  have l8 : r8.toNat < 2 ^ 26 := by rw [s8]; exact Nat.mod_lt _ (by norm_num)
  have s9 : r9.toNat = m9.toNat % 2 ^ 22 := u64_mask22 _
  have l9 : r9.toNat < 2 ^ 22 := by rw [s9]; exact Nat.mod_lt _ (by norm_num)
  have eM : M.toNat = m9.toNat / 2 ^ 22 := u64_shr22 _
  have bM : M.toNat ≤ 2 ^ 38 + 2 ^ 20 := by rw [eM]; exact b9
  obtain ⟨f0, bd0⟩ : d0.toNat = _ ∧ _ := red_d0 r0 M l0 bM
  obtain ⟨f1, bd1⟩ : d1.toNat = _ ∧ _ := red_d1 d0 r1 M bd0 l1 bM
  change d1.toNat / 2 ^ 26 ≤ _ at bd1
  clear_value m0 r0 m1 r1 m2 r2 m3 r3 m4 r4 m5 r5 m6 r6 m7 r7 m8 r8 m9 r9 M d0 d1
  have z0 := red_mask d0
  have z1 := red_mask d1
  have z2 := red_n2 d1 r2 bd1 l2
  have z3 := red_narrow r3 l3
  have z4 := red_narrow r4 l4
  have z5 := red_narrow r5 l5
  have z6 := red_narrow r6 l6
  have z7 := red_narrow r7 l7
  have z8 := red_narrow r8 l8
  have z9 := red_narrow r9 (l9.trans (by norm_num))
  have y0 : d0.toNat % 2 ^ 26 < 2 ^ 26 := Nat.mod_lt _ (by norm_num)
  have y1 : d1.toNat % 2 ^ 26 < 2 ^ 26 := Nat.mod_lt _ (by norm_num)
  constructor
  · clear f0 f1 eM bM b9 e9 s9 e0 b0 s0 e1 b1 s1 e2 b2 s2 e3 b3 s3 e4 b4 s4 e5 b5 s5 e6 b6 s6 e7 b7 s7 e8 b8 s8 h0 h1 h2 h3 h4 h5 h6 h7 h8 h9 h10 h11 h12 h13 h14 h15 h16 h17 h18 h19
    constructor <;> simp only [z0, z1, z2, z3, z4, z5, z6, z7, z8, z9] <;> omega
  · refine ⟨16 * (t.t10.toNat + t.t11.toNat * 2 ^ 26 + t.t12.toNat * 2 ^ 52 + t.t13.toNat * 2 ^ 78 + t.t14.toNat * 2 ^ 104 + t.t15.toNat * 2 ^ 130 + t.t16.toNat * 2 ^ 156 + t.t17.toNat * 2 ^ 182 + t.t18.toNat * 2 ^ 208 + t.t19.toNat * 2 ^ 234) + M.toNat, ?_⟩
    rw [s0] at f0; rw [s1] at f1
    unfold FV.val Wide.val
    simp only [z0, z1, z2, z3, z4, z5, z6, z7, z8, z9, s2, s3, s4, s5, s6, s7, s8, s9]
    exact reduce_num e0 e1 e2 e3 e4 e5 e6 e7 e8 e9 eM f0 f1

theorem mul_spec {a b : FV} (ha : a.Mag 8) (hb : b.Mag 8) :
    (a.mul b).Mag 1 ∧ (a.mul b).val % p = a.val * b.val % p := by
  obtain ⟨h1, h2⟩ := mulTerms_spec ha hb
  obtain ⟨h3, k, h4⟩ := reduce_spec h1
  refine ⟨h3, ?_⟩
  rw [← h2, ← h4, Nat.add_mul_mod_self_right]; rfl

theorem square_spec {a : FV} (ha : a.Mag 8) : a.square.Mag 1 ∧ a.square.val % p = a.val * a.val % p := by
  obtain ⟨h1, h2⟩ := sqTerms_spec ha
  obtain ⟨h3, k, h4⟩ := reduce_spec h1
  refine ⟨h3, ?_⟩
  rw [← h2, ← h4, Nat.add_mul_mod_self_right]; rfl

end Tss.Secp
