import Verif.Lemmas.SecpWords
/-
The word-level field arithmetic of btcec computes in Z/P.
-/
namespace Tss.Secp
open Tss

/-- A normalised value: tight words and below P. -/
structure FV.Norm (f : FV) : Prop where
  tight : f.Tight
  lt : f.val < p

/-- The first pass of Normalize. -/
theorem norm_first {m : Nat} {f : FV} (hm : m ≤ 62) (h : f.Mag m) (q : UInt32) (hq : q.toNat = f.n9.toNat / 2 ^ 22)
    (t : FV) (ht : t = FV.carryPass q { f with n9 := f.n9 &&& 0x3fffff }) :
    t.val + q.toNat * p = f.val ∧ t.n0.toNat < 2 ^ 26 ∧ t.n1.toNat < 2 ^ 26 ∧ t.n2.toNat < 2 ^ 26 ∧ t.n3.toNat < 2 ^ 26 ∧
    t.n4.toNat < 2 ^ 26 ∧ t.n5.toNat < 2 ^ 26 ∧ t.n6.toNat < 2 ^ 26 ∧ t.n7.toNat < 2 ^ 26 ∧ t.n8.toNat < 2 ^ 26 ∧
    t.n9.toNat < 2 ^ 22 + 63 := by
  obtain ⟨h0, h1, h2, h3, h4, h5, h6, h7, h8, h9⟩ := h
  have hb : m * (2 ^ 26 + 2 ^ 19) ≤ 62 * (2 ^ 26 + 2 ^ 19) := Nat.mul_le_mul_right _ hm
  have hb9 : m * 2 ^ 22 ≤ 62 * 2 ^ 22 := Nat.mul_le_mul_right _ hm
  obtain ⟨tv, t0, t1, t2, t3, t4, t5, t6, t7, t8, t9⟩ :=
    carryPass_spec q { f with n9 := f.n9 &&& 0x3fffff } (by omega) (by simpa using by omega) (by simpa using by omega)
      (by simpa using by omega) (by simpa using by omega) (by simpa using by omega) (by simpa using by omega)
      (by simpa using by omega) (by simpa using by omega) (by simpa using by omega) (by
        rw [u32_mask22]; omega)
  rw [← ht] at tv t0 t1 t2 t3 t4 t5 t6 t7 t8 t9
  simp only [u32_mask22] at t9
  refine ⟨?_, t0, t1, t2, t3, t4, t5, t6, t7, t8, by omega⟩
  rw [tv, hq]
  unfold FV.val p
  simp only [u32_mask22]
  omega

/-- The second pass of Normalize. -/
theorem norm_second (t : FV) (t0 : t.n0.toNat < 2 ^ 26) (t1 : t.n1.toNat < 2 ^ 26) (t2 : t.n2.toNat < 2 ^ 26)
    (t3 : t.n3.toNat < 2 ^ 26) (t4 : t.n4.toNat < 2 ^ 26) (t5 : t.n5.toNat < 2 ^ 26) (t6 : t.n6.toNat < 2 ^ 26)
    (t7 : t.n7.toNat < 2 ^ 26) (t8 : t.n8.toNat < 2 ^ 26) (t9 : t.n9.toNat < 2 ^ 22 + 63) (r : FV)
    (hr : r = FV.carryPass t.overflow t) :
    r.val = t.val + (if p ≤ t.val then 1 else 0) * (2 ^ 32 + 977) ∧
    ({ r with n9 := r.n9 &&& 0x3fffff } : FV).Tight ∧ ({ r with n9 := r.n9 &&& 0x3fffff } : FV).val = r.val % 2 ^ 256 := by
  have ho := overflow_spec t t0 t1 t2 t3 t4 t5 t6 t7 t8
  obtain ⟨rv, r0, r1, r2, r3, r4, r5, r6, r7, r8, r9⟩ :=
    carryPass_spec t.overflow t (by rw [ho]; split <;> omega) (by omega) (by omega) (by omega) (by omega) (by omega)
      (by omega) (by omega) (by omega) (by omega) (by omega)
  rw [← hr] at rv r0 r1 r2 r3 r4 r5 r6 r7 r8 r9
  rw [ho] at rv
  refine ⟨rv, ⟨r0, r1, r2, r3, r4, r5, r6, r7, r8, ?_⟩, ?_⟩
  · change (r.n9 &&& 0x3fffff).toNat < _
    rw [u32_mask22]; exact Nat.mod_lt _ (by norm_num)
  · clear rv ho r9 hr t0 t1 t2 t3 t4 t5 t6 t7 t8 t9
    unfold FV.val
    simp only [u32_mask22]
    omega

theorem normalize_spec {m : Nat} {f : FV} (hm : m ≤ 62) (h : f.Mag m) :
    f.normalize.Norm ∧ f.normalize.val % p = f.val % p := by
  obtain ⟨tv, t0, t1, t2, t3, t4, t5, t6, t7, t8, t9⟩ := norm_first hm h (f.n9 >>> 22) (u32_shr22 _) _ rfl
  unfold FV.normalize
  simp only
  generalize FV.carryPass (f.n9 >>> 22) { f with n9 := f.n9 &&& 0x3fffff } = t at *
  obtain ⟨rv, rt, rm⟩ := norm_second t t0 t1 t2 t3 t4 t5 t6 t7 t8 t9 _ rfl
  generalize FV.carryPass t.overflow t = r at *
  have tlt : t.val < 2 ^ 256 + 2 ^ 241 := by unfold FV.val; omega
  generalize ({ r with n9 := r.n9 &&& 0x3fffff } : FV) = u at *
  rw [rv] at rm
  generalize t.val = T at *
  clear rv t0 t1 t2 t3 t4 t5 t6 t7 t8 t9
  have hp : p = 2 ^ 256 - 2 ^ 32 - 977 := rfl
  rw [← tv, Nat.add_mul_mod_self_right]
  by_cases hc : p ≤ T
  · rw [if_pos hc] at rm
    have e : u.val + p = T := by omega
    exact ⟨⟨rt, by omega⟩, by rw [← e, Nat.add_mod_right]⟩
  · rw [if_neg hc] at rm
    have e : u.val = T := by omega
    exact ⟨⟨rt, by omega⟩, by rw [← e]⟩

/-! ### Linear operations -/

theorem negate_spec {m : Nat} {f : FV} {k : UInt32} (hm : m ≤ k.toNat) (hk : k.toNat ≤ 61) (h : f.Mag m) :
    (f.negate k).Mag (k.toNat + 1) ∧ (f.negate k).val + f.val = (k.toNat + 1) * p := by
  obtain ⟨h0, h1, h2, h3, h4, h5, h6, h7, h8, h9⟩ := h.mono hm
  have key : ∀ (w x : UInt32) (c : Nat), w.toNat = c → c < 2 ^ 26 → x.toNat ≤ (k.toNat + 1) * c →
      ((k + 1) * w - x).toNat = (k.toNat + 1) * c - x.toNat := by
    intro w x c hw hc hx
    have e1 : (k + 1).toNat = k.toNat + 1 := by
      rw [UInt32.toNat_add]; exact Nat.mod_eq_of_lt (by have : (1 : UInt32).toNat = 1 := rfl; omega)
    have e2 : ((k + 1) * w).toNat = (k.toNat + 1) * c := by
      rw [UInt32.toNat_mul, e1, hw]
      apply Nat.mod_eq_of_lt
      calc (k.toNat + 1) * c ≤ 62 * 2 ^ 26 := Nat.mul_le_mul (by omega) hc.le
        _ < 2 ^ 32 := by norm_num
    rw [UInt32.toNat_sub_of_le _ _ (by rw [UInt32.le_iff_toNat_le, e2]; exact hx), e2]
  have c0 : 67107887 < 2 ^ 26 := by norm_num
  have c1 : 67108799 < 2 ^ 26 := by norm_num
  have cm : 67108863 < 2 ^ 26 := by norm_num
  have ct : 4194303 < 2 ^ 26 := by norm_num
  have g0 := key 0x3fffc2f f.n0 67107887 rfl c0 (by linarith)
  have g1 := key 0x3ffffbf f.n1 67108799 rfl c1 (by linarith)
  have g2 := key 0x3ffffff f.n2 67108863 rfl cm (by linarith)
  have g3 := key 0x3ffffff f.n3 67108863 rfl cm (by linarith)
  have g4 := key 0x3ffffff f.n4 67108863 rfl cm (by linarith)
  have g5 := key 0x3ffffff f.n5 67108863 rfl cm (by linarith)
  have g6 := key 0x3ffffff f.n6 67108863 rfl cm (by linarith)
  have g7 := key 0x3ffffff f.n7 67108863 rfl cm (by linarith)
  have g8 := key 0x3ffffff f.n8 67108863 rfl cm (by linarith)
  have g9 := key 0x3fffff f.n9 4194303 rfl ct (by linarith)
  constructor
  · constructor <;> simp only [FV.negate, g0, g1, g2, g3, g4, g5, g6, g7, g8, g9] <;> omega
  · have hp : p = 2 ^ 256 - 2 ^ 32 - 977 := rfl
    unfold FV.val
    simp only [FV.negate, g0, g1, g2, g3, g4, g5, g6, g7, g8, g9, hp]
    omega

theorem add_spec {m n : Nat} {f g : FV} (hmn : m + n ≤ 63) (hf : f.Mag m) (hg : g.Mag n) :
    (f.add g).Mag (m + n) ∧ (f.add g).val = f.val + g.val := by
  obtain ⟨h0, h1, h2, h3, h4, h5, h6, h7, h8, h9⟩ := hf
  obtain ⟨k0, k1, k2, k3, k4, k5, k6, k7, k8, k9⟩ := hg
  have key : ∀ (x y : UInt32), x.toNat + y.toNat ≤ (m + n) * (2 ^ 26 + 2 ^ 19) → (x + y).toNat = x.toNat + y.toNat := by
    intro x y h
    rw [UInt32.toNat_add]
    apply Nat.mod_eq_of_lt
    omega
  have e0 := key f.n0 g.n0 (by omega)
  have e1 := key f.n1 g.n1 (by omega)
  have e2 := key f.n2 g.n2 (by omega)
  have e3 := key f.n3 g.n3 (by omega)
  have e4 := key f.n4 g.n4 (by omega)
  have e5 := key f.n5 g.n5 (by omega)
  have e6 := key f.n6 g.n6 (by omega)
  have e7 := key f.n7 g.n7 (by omega)
  have e8 := key f.n8 g.n8 (by omega)
  have e9 := key f.n9 g.n9 (by omega)
  constructor
  · constructor <;> simp only [FV.add, e0, e1, e2, e3, e4, e5, e6, e7, e8, e9] <;> omega
  · unfold FV.val
    simp only [FV.add, e0, e1, e2, e3, e4, e5, e6, e7, e8, e9]
    omega

theorem addInt_spec {m : Nat} {f : FV} {c : Nat} (hc : c ≤ 1000) (hm : m ≤ 62) (hf : f.Mag m) :
    (f.addInt c).Mag (m + 1) ∧ (f.addInt c).val = f.val + c := by
  obtain ⟨h0, h1, h2, h3, h4, h5, h6, h7, h8, h9⟩ := hf
  have hcn : (UInt32.ofNat c).toNat = c := by
    rw [UInt32.toNat_ofNat']; exact Nat.mod_eq_of_lt (by omega)
  have e0 : (f.n0 + UInt32.ofNat c).toNat = f.n0.toNat + c := by
    rw [UInt32.toNat_add, hcn]; exact Nat.mod_eq_of_lt (by linarith)
  constructor
  · constructor <;> simp only [FV.addInt, e0] <;> linarith
  · unfold FV.val
    simp only [FV.addInt, e0]
    omega

theorem mulInt_spec {m : Nat} {f : FV} {c : Nat} (hc : c ≤ 63) (hm : m * c ≤ 63) (hf : f.Mag m) :
    (f.mulInt c).Mag (m * c) ∧ (f.mulInt c).val = f.val * c := by
  obtain ⟨h0, h1, h2, h3, h4, h5, h6, h7, h8, h9⟩ := hf
  have hcn : (UInt32.ofNat c).toNat = c := by
    rw [UInt32.toNat_ofNat']; exact Nat.mod_eq_of_lt (by omega)
  have key : ∀ (x : UInt32) (B : Nat), B ≤ 2 ^ 26 + 2 ^ 19 → x.toNat ≤ m * B →
      (x * UInt32.ofNat c).toNat = x.toNat * c ∧ x.toNat * c ≤ m * c * B := by
    intro x B hB h
    have h1 : x.toNat * c ≤ m * c * B := by
      calc x.toNat * c ≤ m * B * c := Nat.mul_le_mul_right _ h
        _ = m * c * B := by ring
    have h2 : m * c * B ≤ 63 * (2 ^ 26 + 2 ^ 19) := Nat.mul_le_mul hm hB
    refine ⟨?_, h1⟩
    rw [UInt32.toNat_mul, hcn]
    apply Nat.mod_eq_of_lt
    omega
  obtain ⟨e0, b0⟩ := key f.n0 _ le_rfl h0
  obtain ⟨e1, b1⟩ := key f.n1 _ le_rfl h1
  obtain ⟨e2, b2⟩ := key f.n2 _ le_rfl h2
  obtain ⟨e3, b3⟩ := key f.n3 _ le_rfl h3
  obtain ⟨e4, b4⟩ := key f.n4 _ le_rfl h4
  obtain ⟨e5, b5⟩ := key f.n5 _ le_rfl h5
  obtain ⟨e6, b6⟩ := key f.n6 _ le_rfl h6
  obtain ⟨e7, b7⟩ := key f.n7 _ le_rfl h7
  obtain ⟨e8, b8⟩ := key f.n8 _ le_rfl h8
  obtain ⟨e9, b9⟩ := key f.n9 (2 ^ 22) (by norm_num) h9
  constructor
  · constructor <;> simp only [FV.mulInt, e0, e1, e2, e3, e4, e5, e6, e7, e8, e9] <;> assumption
  · unfold FV.val
    simp only [FV.mulInt, e0, e1, e2, e3, e4, e5, e6, e7, e8, e9]
    ring

end Tss.Secp
