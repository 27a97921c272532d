import Verif.Props.Ecdsa
/-
C86: public key recovery and compact signatures.
-/
namespace Tss.Secp
open Tss spec

namespace spec

/-- R is the candidate number i for a signature with first component r: its x-coordinate is r, plus N if the second bit of i is set
(i / 2 in general), and the last bit of i is the parity of its y-coordinate. -/
def IsCandidate (R : Secp256k1.Point) (r : Int) (i : Nat) : Prop :=
  R ≠ 0 ∧ (affine R).1 = N * ((i / 2 : Nat) : Int) + r ∧ (affine R).2 % 2 = ((i % 2 : Nat) : Int)

end spec

theorem P_lt_2N : (P : Int) < 2 * N := by decide

theorem affine_range (A : Secp256k1.Point) : (0 ≤ (affine A).1 ∧ (affine A).1 < P) ∧ 0 ≤ (affine A).2 ∧ (affine A).2 < P :=
  affine_bounds (Q := A) (x := (affine A).1) (y := (affine A).2) rfl

theorem N_smul (A : Secp256k1.Point) : N • A = 0 := by
  rw [smul_congr (b := 0) (by rw [Int.modEq_zero_iff_dvd]), zero_zsmul]

/-- What key recovery computes, for components in [1, N). -/
theorem recover_spec (r s : Int) (hr : 1 ≤ r ∧ r < N) (hs : 1 ≤ s ∧ s < N) (msg : Bytes) (i : Nat) (chk : Bool) (A : ECPoint) :
    recoverKey r s msg i chk = .ok A ↔ ∃ R Q : Secp256k1.Point, IsCandidate R r i ∧ s • R = msgNum msg • B + r • Q ∧
      affine Q = (A.x, A.y) := by
  obtain ⟨w, hw, w0, w1, hrw⟩ := inv_mod (not_dvd_range hr.1 hr.2)
  unfold recoverKey
  rw [if_neg (by omega), if_neg (by omega), if_neg (by omega), if_neg (by omega)]
  simp only
  rw [hashToInt_eq, hw, curveP_eq]
  generalize msgNum msg = e
  have hx0 : 0 ≤ N * ((i / 2 : Nat) : Int) + r := by
    have := mul_nonneg N_pos.le (Int.natCast_nonneg (i / 2))
    omega
  unfold IsCandidate
  generalize N * ((i / 2 : Nat) : Int) + r = x at *
  by_cases hP : x ≥ P
  · rw [if_pos hP]
    constructor
    · intro h; cases h
    · rintro ⟨R, Q, ⟨-, h, -⟩, -⟩
      have := (affine_range R).1.2
      omega
  rw [if_neg hP]
  have hd := decompress_ok hx0 (lt_trans (not_le.1 hP) p_lt) (i % 2 == 1)
  have hpar : ∀ y : Int, ((i % 2 == 1) = true ↔ y % 2 = 1) ↔ y % 2 = ((i % 2 : Nat) : Int) := by
    intro y
    rw [beq_iff_eq]
    omega
  cases hdec : decompress x (i % 2 == 1) with
  | error er =>
    simp only
    constructor
    · intro h; cases h
    · rintro ⟨R, Q, ⟨hR, hx, hy⟩, -⟩
      obtain ⟨b1, b2⟩ := affine_range R
      have hon := ((C73_isOnCurve _ _ b1 b2).2).2 ⟨R, hR, rfl⟩
      rw [(C73_isOnCurve _ _ b1 b2).1, hx] at hon
      rw [(hd (affine R).2).2 ⟨b2, hon, (hpar _).2 hy⟩] at hdec
      cases hdec
  | ok y =>
    simp only
    obtain ⟨hy, hc, hp⟩ := (hd y).1 hdec
    obtain ⟨R, hR, haR⟩ := ((C73_isOnCurve x y ⟨hx0, not_le.1 hP⟩ hy).2).1 (((C73_isOnCurve x y ⟨hx0, not_le.1 hP⟩ hy).1).2 hc)
    have hpr := (hpar y).1 hp
    rw [sm_int (A := R) N_pos.le haR, N_smul, sm_int (A := R) (Int.emod_nonneg _ (by decide)) haR,
      sbm_int (Int.emod_nonneg _ (by decide)), C73_add]
    rw [if_neg (by rintro ⟨-, h | h⟩ <;> exact h rfl)]
    have c1 : (w * s % N) • R = w • s • R := by
      rw [← mul_zsmul]; exact smul_congr (Int.mod_modEq _ _) _
    have c2 : (-e % N * w % N) • B = w • (-(e • B)) := by
      rw [← neg_zsmul, ← mul_zsmul]
      refine smul_congr ((Int.mod_modEq _ _).trans ?_) _
      rw [mul_comm w]
      exact (Int.mod_modEq _ _).mul_right w
    rw [c1, c2, ← zsmul_add]
    constructor
    · intro h
      injection h with h
      refine ⟨R, w • (s • R + -(e • B)), ⟨hR, by rw [haR], by rw [haR]; exact hpr⟩, ?_, ?_⟩
      · rw [(smul_cancel hrw _).2, add_comm (s • R), add_neg_cancel_left]
      · rw [← h]
    · rintro ⟨R', Q, ⟨hR', hx', hy'⟩, hs', hA⟩
      have hRR : R' = R := by
        obtain ⟨b1, b2⟩ := affine_range R'
        have hon := ((C73_isOnCurve _ _ b1 b2).2).2 ⟨R', hR', rfl⟩
        rw [(C73_isOnCurve _ _ b1 b2).1, hx'] at hon
        have := (hd (affine R').2).2 ⟨b2, hon, (hpar _).2 hy'⟩
        rw [hdec] at this
        injection this with this
        apply C73_affine_injective
        rw [haR, this, ← hx']
      subst hRR
      have : s • R' + -(e • B) = r • Q := by rw [hs', add_comm (e • B), add_neg_cancel_right]
      rw [this, (smul_cancel hrw Q).1, hA]

theorem candidate_mod {R : Secp256k1.Point} {r : Int} {i : Nat} (hr : 1 ≤ r ∧ r < N) (h : IsCandidate R r i) : (affine R).1 % N = r := by
  rw [h.2.1, add_comm, Int.add_mul_emod_self_left, Int.emod_eq_of_lt (by omega) hr.2]

theorem candidate_lt {R : Secp256k1.Point} {r : Int} {i : Nat} (hr : 1 ≤ r ∧ r < N) (h : IsCandidate R r i) : i < 4 := by
  have h1 := (affine_range R).1.2
  rw [h.2.1] at h1
  have h2 := P_lt_2N
  by_contra hi
  have h3 : (2 : Int) ≤ ((i / 2 : Nat) : Int) := by omega
  have h4 : N * 2 ≤ N * ((i / 2 : Nat) : Int) := mul_le_mul_of_nonneg_left h3 N_pos.le
  omega

theorem candidate_exists {R : Secp256k1.Point} (hR : R ≠ 0) {r : Int} (h : (affine R).1 % N = r) : ∃ i < 4, IsCandidate R r i := by
  obtain ⟨⟨x0, x1⟩, y0, y1⟩ := affine_range R
  have h2 := P_lt_2N
  have hd := Int.emod_add_mul_ediv (affine R).1 N
  have q0 : 0 ≤ (affine R).1 / N := Int.ediv_nonneg x0 N_pos.le
  have q1 : (affine R).1 / N < 2 := (Int.ediv_lt_iff_lt_mul N_pos).2 (by omega)
  have p0 : 0 ≤ (affine R).2 % 2 := by omega
  have p1 : (affine R).2 % 2 < 2 := by omega
  refine ⟨2 * ((affine R).1 / N).toNat + ((affine R).2 % 2).toNat, by omega, hR, ?_, ?_⟩
  · rw [show (2 * ((affine R).1 / N).toNat + ((affine R).2 % 2).toNat) / 2 = ((affine R).1 / N).toNat by omega,
      Int.toNat_of_nonneg q0, ← h]
    omega
  · omega

/-- C86: exactly the keys under which (r, s) is a signature are recovered, by the four candidates 0 to 3: nothing is missed and
nothing else is returned. The subgroup check changes nothing. -/
theorem C86_recover_iff (r s : Int) (hr : 1 ≤ r ∧ r < N) (hs : 1 ≤ s ∧ s < N) (msg : Bytes) (chk : Bool) (Q : Secp256k1.Point) (A : ECPoint)
    (hA : affine Q = (A.x, A.y)) :
    (∃ i, recoverKey r s msg i chk = .ok A) ↔ ValidSig Q (msgNum msg) r s := by
  constructor
  · rintro ⟨i, h⟩
    obtain ⟨R, Q', hc, hs', hA'⟩ := (recover_spec r s hr hs msg i chk A).1 h
    have : Q' = Q := C73_affine_injective _ _ (hA'.trans hA.symm)
    subst this
    exact ⟨hr.1, hr.2, hs.1, hs.2, R, hc.1, hs', candidate_mod hr hc⟩
  · rintro ⟨-, -, -, -, R, hR, hs', hx⟩
    obtain ⟨i, -, hc⟩ := candidate_exists hR hx
    exact ⟨i, (recover_spec r s hr hs msg i chk A).2 ⟨R, Q, hc, hs', hA⟩⟩

/-- C86: only the candidates 0 to 3 recover anything, and different ones recover different keys: so at most four keys fit a
signature. -/
theorem C86_recover_unique (r s : Int) (hr : 1 ≤ r ∧ r < N) (hs : 1 ≤ s ∧ s < N) (msg : Bytes) (i j : Nat) (c c' : Bool) (A : ECPoint)
    (h : recoverKey r s msg i c = .ok A) : i < 4 ∧ (recoverKey r s msg j c' = .ok A → i = j) := by
  obtain ⟨R, Q, hc, hs', hA⟩ := (recover_spec r s hr hs msg i c A).1 h
  refine ⟨candidate_lt hr hc, ?_⟩
  intro h'
  obtain ⟨R', Q', hc', hs'', hA'⟩ := (recover_spec r s hr hs msg j c' A).1 h'
  have hQ : Q' = Q := C73_affine_injective _ _ (hA'.trans hA.symm)
  subst hQ
  obtain ⟨w, -, -, -, hsw⟩ := inv_mod (not_dvd_range hs.1 hs.2)
  have hR : R = R' := by rw [← (smul_cancel hsw R).1, hs', ← hs'', (smul_cancel hsw R').1]
  subst hR
  obtain ⟨-, hx, hy⟩ := hc
  obtain ⟨-, hx', hy'⟩ := hc'
  rw [hx] at hx'
  have : N * ((i / 2 : Nat) : Int) = N * ((j / 2 : Nat) : Int) := by omega
  have := mul_left_cancel₀ (ne_of_gt N_pos) this
  omega

theorem recover_no_panic (r s : Int) (h0 : 0 ≤ r) (msg : Bytes) (i : Nat) (chk : Bool) : recoverKey r s msg i chk ≠ .panic := by
  unfold recoverKey
  split
  · simp
  split
  · simp
  split
  · simp
  split
  · simp
  simp only
  split
  · simp
  split
  · simp
  split
  · simp
  rename_i h1 h2 _ _ _ _ _ _ _
  obtain ⟨w, hw, -⟩ := inv_mod (not_dvd_range (a := r) (by omega) (by omega))
  rw [hw]
  simp

/-- Recovery fails outside the ranges (for the non-negative numbers that byte strings denote). -/
theorem recover_ranges {r s : Int} (h0 : 0 ≤ r) (s0 : 0 ≤ s) {msg : Bytes} {i : Nat} {chk : Bool} {A : ECPoint}
    (h : recoverKey r s msg i chk = .ok A) : (1 ≤ r ∧ r < N) ∧ 1 ≤ s ∧ s < N := by
  unfold recoverKey at h
  split at h
  · cases h
  split at h
  · cases h
  split at h
  · cases h
  split at h
  · cases h
  omega

/-! ### Compact signatures -/

theorem byteLen (n : Nat) : (bitLen (n : Int) + 7) / 8 = (natBE n).length := by
  unfold bitLen
  rw [Int.natAbs_natCast]
  split
  · rename_i h; subst h; rfl
  · rename_i h
    have l1 := Nat.log2_self_le h
    have l2 := Nat.lt_log2_self (n := n)
    generalize n.log2 = L at *
    have a : (natBE n).length ≤ L / 8 + 1 := by
      apply natBE_length_le
      have : (256 : Nat) ^ (L / 8 + 1) = 2 ^ (8 * (L / 8 + 1)) := by rw [show (256 : Nat) = 2 ^ 8 by rfl, ← pow_mul]
      rw [this]
      exact lt_of_lt_of_le l2 (Nat.pow_le_pow_right (by decide) (by omega))
    have b : L / 8 < (natBE n).length := by
      apply natBE_length_gt
      have : (256 : Nat) ^ (L / 8) = 2 ^ (8 * (L / 8)) := by rw [show (256 : Nat) = 2 ^ 8 by rfl, ← pow_mul]
      rw [this]
      exact le_trans (Nat.pow_le_pow_right (by decide) (by omega)) l1
    omega

theorem compactInt_spec {v : Int} (h0 : 0 ≤ v) (h : v < 2 ^ 256) : (compactInt v).length = 32 ∧ (beNat (compactInt v) : Int) = v := by
  obtain ⟨n, rfl⟩ : ∃ n : Nat, v = n := ⟨v.toNat, by omega⟩
  unfold compactInt
  simp only
  rw [byteLen, show (bitSize + 7) / 8 = 32 from rfl]
  have e : intBytes (n : Int) = natBE n := by unfold intBytes; rw [Int.natAbs_natCast]
  rw [e]
  have hl : (natBE n).length ≤ 32 := natBE_length_le _ _ (by norm_num; exact_mod_cast h)
  split
  · rw [beNat_zeros_append, beNat_natBE]
    refine ⟨by simp; omega, rfl⟩
  · rw [List.nil_append, beNat_natBE]
    exact ⟨by omega, rfl⟩

theorem compactInt_of {b : Bytes} (h : b.length = 32) : compactInt (beNat b : Int) = b := by
  obtain ⟨l, e⟩ := compactInt_spec (v := (beNat b : Int)) (by omega) (beNat_lt' h)
  exact beNat_inj _ _ (by rw [l, h]) (by exact_mod_cast e)

theorem header_decode (h : UInt8) : (((h - 27) &&& (~~~(4 : UInt8))).toNat < 4 ↔ 27 ≤ h ∧ h ≤ 34) :=
  Ckd.uint8_all (fun h => (((h - 27) &&& (~~~(4 : UInt8))).toNat < 4 ↔ 27 ≤ h ∧ h ≤ 34)) (by decide +kernel) h

theorem header_encode (i : Nat) (hi : i < 4) (c : Bool) :
    ((compactHeader i c - 27) &&& (~~~(4 : UInt8))).toNat = i ∧ (((compactHeader i c - 27) &&& 4) == 4) = c := by
  have : ∀ i < 4, ∀ c : Bool, ((compactHeader i c - 27) &&& (~~~(4 : UInt8))).toNat = i ∧ (((compactHeader i c - 27) &&& 4) == 4) = c := by
    decide
  exact this i hi c

theorem header_unique (h : UInt8) (h1 : 27 ≤ h ∧ h ≤ 34) :
    h = compactHeader ((h - 27) &&& (~~~(4 : UInt8))).toNat (((h - 27) &&& 4) == 4) :=
  Ckd.uint8_all (fun h => 27 ≤ h ∧ h ≤ 34 → h = compactHeader ((h - 27) &&& (~~~(4 : UInt8))).toNat (((h - 27) &&& 4) == 4))
    (by decide +kernel) h h1

theorem recoverCompact_eq {h : UInt8} {R S : Bytes} (hR : R.length = 32) (hS : S.length = 32) (hash : Bytes) :
    recoverCompact (h :: (R ++ S)) hash =
      match recoverKey (beNat R) (beNat S) hash ((h - 27) &&& (~~~(4 : UInt8))).toNat false with
      | .panic => .panic
      | .err e => .err (.recover e)
      | .ok key => .ok (key, ((h - 27) &&& 4) == 4) := by
  unfold recoverCompact
  rw [show (bitSize + 7) / 8 = 32 from rfl]
  simp only
  rw [if_neg (by simp; omega)]
  have e1 : ((h :: (R ++ S)).take (32 + 1)).drop 1 = R := by
    rw [List.take_succ_cons]
    simp only [List.drop_succ_cons, List.drop_zero]
    rw [← hR, List.take_left]
  have e2 : (h :: (R ++ S)).drop (32 + 1) = S := by
    rw [List.drop_succ_cons, ← hR, List.drop_left]
  rw [e1, e2]
  rfl

/-- C86: `RecoverCompact` accepts exactly 65 bytes: a first byte from 27 to 34, r and s in 32 bytes each; the first byte selects the
candidate and tells compression; and the returned key - whose coordinates are those of a group element - is one under which (r, s)
is a signature of the digest. -/
theorem C86_recoverCompact (b hash : Bytes) (A : ECPoint) (c : Bool) :
    recoverCompact b hash = .ok (A, c) ↔ ∃ (i : Nat) (R S : Bytes), i < 4 ∧ b = compactHeader i c :: (R ++ S) ∧ R.length = 32 ∧
      S.length = 32 ∧ (1 ≤ (beNat R : Int) ∧ (beNat R : Int) < N) ∧ (1 ≤ (beNat S : Int) ∧ (beNat S : Int) < N) ∧
      ∃ T Q : Secp256k1.Point, IsCandidate T (beNat R) i ∧ (beNat S : Int) • T = msgNum hash • B + (beNat R : Int) • Q ∧
        affine Q = (A.x, A.y) := by
  constructor
  · intro h
    have hlen : b.length = 65 := by
      by_contra hn
      unfold recoverCompact at h
      rw [show (bitSize + 7) / 8 = 32 from rfl] at h
      simp only at h
      rw [if_pos (by omega)] at h
      cases h
    match b, hlen with
    | f :: t, hl =>
      have hl' : t.length = 64 := by simpa using hl
      have l1 : (t.take 32).length = 32 := by simp; omega
      have l2 : (t.drop 32).length = 32 := by simp; omega
      have ht : t = t.take 32 ++ t.drop 32 := (List.take_append_drop _ _).symm
      rw [ht, recoverCompact_eq l1 l2] at h
      cases hk : recoverKey (beNat (t.take 32)) (beNat (t.drop 32)) hash ((f - 27) &&& (~~~(4 : UInt8))).toNat false with
      | panic => rw [hk] at h; cases h
      | err e => rw [hk] at h; cases h
      | ok key =>
        rw [hk] at h
        injection h with h
        injection h with e1 e2
        subst e1
        obtain ⟨rr, ss⟩ := recover_ranges (by omega) (by omega) hk
        have hi := (C86_recover_unique _ _ rr ss hash _ 0 false false key hk).1
        have hsp := (recover_spec _ _ rr ss hash _ false key).1 hk
        refine ⟨((f - 27) &&& (~~~(4 : UInt8))).toNat, t.take 32, t.drop 32, hi, ?_, l1, l2, rr, ss, hsp⟩
        rw [← ht, ← e2, ← header_unique f ((header_decode f).1 hi)]
  · rintro ⟨i, R, S, hi, rfl, hR, hS, rr, ss, hsp⟩
    rw [recoverCompact_eq hR hS, (header_encode i hi c).1, (header_encode i hi c).2,
      (recover_spec _ _ rr ss hash i false A).2 hsp]

/-- C86: so `Verify` accepts the recovered key. -/
theorem C86_recovered_verifies (h : UInt8) (R S hash : Bytes) (hR : R.length = 32) (A : ECPoint) (c : Bool)
    (hk : recoverCompact (h :: (R ++ S)) hash = .ok (A, c)) : verify A hash (beNat R) (beNat S) = true := by
  obtain ⟨i, R', S', hi, e, hR', hS', rr, ss, T, Q, hc, hs, hA⟩ := (C86_recoverCompact _ _ _ _).1 hk
  injection e with e1 e2
  obtain ⟨rfl, rfl⟩ := List.append_inj e2 (by rw [hR, hR'])
  rw [C84_verify_iff Q A hA]
  exact ⟨rr.1, rr.2, ss.1, ss.2, T, hc.1, hs, candidate_mod rr hc⟩

/-- C86: neither call panics. -/
theorem C86_no_panic (b hash : Bytes) : recoverCompact b hash ≠ .panic := by
  unfold recoverCompact
  simp only
  split
  · simp
  · cases hk : recoverKey (beNat ((b.take ((bitSize + 7) / 8 + 1)).drop 1) : Int) (beNat (b.drop ((bitSize + 7) / 8 + 1)) : Int) hash
      ((b.headD 0 - 27) &&& (~~~(4 : UInt8))).toNat false with
    | panic => exact absurd hk (recover_no_panic _ _ (by omega) _ _ _)
    | err e => simp
    | ok k => simp

theorem compactLoop_finds {key : PrivKey} {r s : Int} {hash : Bytes} {c : Bool} (h0 : 0 ≤ r) : ∀ (left i j : Nat), i ≤ j → j < i + left →
    recoverKey r s hash j true = .ok ⟨key.X, key.Y⟩ →
    ∃ m, i ≤ m ∧ m ≤ j ∧ recoverKey r s hash m true = .ok ⟨key.X, key.Y⟩ ∧
      compactLoop key r s hash c left i = .ok (compactHeader m c :: (compactInt r ++ compactInt s))
  | 0, i, j, h1, h2, _ => by omega
  | left + 1, i, j, h1, h2, h => by
    unfold compactLoop
    by_cases hm : recoverKey r s hash i true = .ok ⟨key.X, key.Y⟩
    · refine ⟨i, le_refl _, h1, hm, ?_⟩
      rw [hm]
      simp
    · have hne : i ≠ j := by rintro rfl; exact hm h
      obtain ⟨m, m1, m2, m3, m4⟩ := compactLoop_finds (c := c) h0 left (i + 1) j (by omega) (by omega) h
      refine ⟨m, by omega, m2, m3, ?_⟩
      cases hk : recoverKey r s hash i true with
      | panic => exact absurd hk (recover_no_panic _ _ h0 _ _ _)
      | err e => exact m4
      | ok pk =>
        simp only
        rw [if_neg]
        · exact m4
        · rintro ⟨a, b⟩
          apply hm
          rw [hk]
          cases pk
          cases a
          cases b
          rfl

/-- C86: whenever `Sign` succeeds, so does `SignCompact` with a key whose public half is D·G: the result has 65 bytes, and
`RecoverCompact` of it returns the signer's public key and the compression flag. -/
theorem C86_round_trip (mac : Bytes → Bytes → Bytes) (fuel : Nat) (key : PrivKey) (hkey : affine (key.D • B) = (key.X, key.Y))
    (hash : Bytes) (c : Bool) (r s : Int) (h : sign mac fuel key.D hash = some (.ok (r, s))) :
    ∃ b, signCompact mac fuel key hash c = some (.ok b) ∧ b.length = 65 ∧ recoverCompact b hash = .ok (⟨key.X, key.Y⟩, c) := by
  obtain ⟨r1, r2, s1, s2, v, -⟩ := C84_sign_valid mac fuel key.D hash r s h
  have hN : N % 2 = 1 := by decide
  have hN' : N < 2 ^ 256 := by decide
  have hs : 1 ≤ s ∧ s < N := by omega
  obtain ⟨j, hj⟩ := (C86_recover_iff r s ⟨r1, r2⟩ hs hash true (key.D • B) ⟨key.X, key.Y⟩ hkey).2 v
  have hj4 := (C86_recover_unique r s ⟨r1, r2⟩ hs hash j 0 true true _ hj).1
  obtain ⟨m, -, m2, hm, hl⟩ := compactLoop_finds (c := c) (by omega) 4 0 j (by omega) (by omega) hj
  obtain ⟨lr, er⟩ := compactInt_spec (v := r) (by omega) (by omega)
  obtain ⟨ls, es⟩ := compactInt_spec (v := s) (by omega) (by omega)
  refine ⟨compactHeader m c :: (compactInt r ++ compactInt s), ?_, ?_, ?_⟩
  · unfold signCompact
    rw [h]
    exact congrArg some hl
  · simp; omega
  · rw [C86_recoverCompact]
    have hsp := (recover_spec r s ⟨r1, r2⟩ hs hash m true _).1 hm
    refine ⟨m, _, _, by omega, rfl, lr, ls, ?_⟩
    rw [er, es]
    exact ⟨⟨r1, r2⟩, hs, hsp⟩

/-- C86: `SignCompact` fails exactly when `Sign` does (its own error is unreachable for such keys). -/
theorem C86_compact_errors (mac : Bytes → Bytes → Bytes) (fuel : Nat) (key : PrivKey) (hkey : affine (key.D • B) = (key.X, key.Y))
    (hash : Bytes) (c : Bool) (e : CompErr) (h : signCompact mac fuel key hash c = some (.err e)) :
    ∃ e', e = .sign e' ∧ sign mac fuel key.D hash = some (.err e') := by
  cases hs : sign mac fuel key.D hash with
  | none => unfold signCompact at h; rw [hs] at h; cases h
  | some x =>
    cases x with
    | panic => unfold signCompact at h; rw [hs] at h; cases h
    | err e' =>
      unfold signCompact at h
      rw [hs] at h
      injection h with h
      injection h with h
      exact ⟨e', h.symm, rfl⟩
    | ok rs =>
      obtain ⟨b, hb, -⟩ := C86_round_trip mac fuel key hkey hash c rs.1 rs.2 hs
      rw [hb] at h
      cases h

/-- C86, deviation: for every digest whose number is not a multiple of N there is a compact signature that recovers the point at
infinity, as the key (0, 0) and without an error - and `Verify` accepts the signature under it. -/
theorem C86_infinity (hash : Bytes) (he : ¬N ∣ msgNum hash) :
    ∃ b, recoverCompact b hash = .ok (⟨0, 0⟩, false) ∧ verify ⟨0, 0⟩ hash Gx (msgNum hash % N) = true := by
  have hs0 := Int.emod_nonneg (msgNum hash) (show N ≠ 0 by decide)
  have hs1 := Int.emod_lt_of_pos (msgNum hash) N_pos
  have hne : msgNum hash % N ≠ 0 := fun h => he (Int.dvd_of_emod_eq_zero h)
  have hN' : N < 2 ^ 256 := by decide
  have hx : (affine B).1 = Gx := by rw [base_affine]
  have hg : Gx % N = Gx := by decide
  obtain ⟨i, hi, hc⟩ := candidate_exists (R := B) G_ne_zero (r := Gx) (by rw [hx, hg])
  have heq : (msgNum hash % N) • B = msgNum hash • B + Gx • (0 : Secp256k1.Point) := by
    rw [zsmul_zero, add_zero]; exact smul_congr (Int.mod_modEq _ _) _
  obtain ⟨lr, er⟩ := compactInt_spec (v := Gx) (by decide) (by decide)
  obtain ⟨ls, es⟩ := compactInt_spec (v := msgNum hash % N) hs0 (by omega)
  refine ⟨compactHeader i false :: (compactInt Gx ++ compactInt (msgNum hash % N)), ?_, ?_⟩
  · rw [C86_recoverCompact]
    refine ⟨i, _, _, hi, rfl, lr, ls, ?_⟩
    rw [er, es]
    exact ⟨by decide, by omega, B, 0, hc, heq, rfl⟩
  · rw [C84_verify_iff (0 : Secp256k1.Point) ⟨0, 0⟩ rfl]
    exact ⟨by decide, by decide, by omega, hs1, B, G_ne_zero, heq, by rw [hx, hg]⟩

/-- C86: an instance of the round trip: the key 1, the empty digest and the MAC of `C84_example`. -/
theorem C86_example (c : Bool) : ∃ b, signCompact (fun _ _ => beFixed 32 1) 1 ⟨1, Gx, Gy⟩ [] c = some (.ok b) ∧ b.length = 65 ∧
    recoverCompact b [] = .ok (⟨Gx, Gy⟩, c) := by
  obtain ⟨s, hs⟩ := C84_example 1 [] C84_example_meets
  exact C86_round_trip _ 1 ⟨1, Gx, Gy⟩ (by rw [one_zsmul, base_affine]) [] c Gx s hs

end Tss.Secp
