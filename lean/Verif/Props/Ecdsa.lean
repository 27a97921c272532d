import Verif.Props.Der
/-
C84: ECDSA signing and verification on secp256k1.
-/
namespace Tss.Secp
open Tss spec

namespace spec

/-- The base point; its coordinates are in `C74_scalarBaseMult` and `base_affine`. -/
noncomputable abbrev B : Secp256k1.Point := G

/-- The number signed for a message digest: its first 32 bytes (SEC 1, 4.1.3 step 5). -/
def msgNum (h : Bytes) : Int := beNat (h.take 32)

/-- ECDSA (SEC 1, 4.1.4): the pair (r, s) is a signature of the number e under the key Q. -/
def ValidSig (Q : Secp256k1.Point) (e r s : Int) : Prop :=
  1 ≤ r ∧ r < N ∧ 1 ≤ s ∧ s < N ∧ ∃ R : Secp256k1.Point, R ≠ 0 ∧ s • R = e • B + r • Q ∧ (affine R).1 % N = r

end spec

theorem base_affine : affine B = (Gx, Gy) := by rw [affine_coords, base_coords]

theorem N_pos : 0 < N := by decide

theorem N_prime : Nat.Prime N.toNat := C74_group_order.2.1

theorem bitLen_N : bitLen N = 256 := by decide +kernel

theorem hashToInt_eq (h : Bytes) : hashToInt h = msgNum h := by
  unfold hashToInt msgNum
  rw [bitLen_N]
  simp only
  have e : (if h.length > (256 + 7) / 8 then h.take ((256 + 7) / 8) else h) = h.take 32 := by
    split
    · rfl
    · rw [List.take_of_length_le (by omega)]
  rw [e, if_neg]
  rw [List.length_take]
  push_cast
  have : min (32 : Int) h.length ≤ 32 := min_le_left _ _
  omega

/-! ### The group -/

theorem smul_congr {a b : Int} (h : a ≡ b [ZMOD N]) (A : Secp256k1.Point) : a • A = b • A := by
  apply zsmul_mod A
  rw [← ord_N]
  exact h.symm.dvd

theorem smul_inj {a b : Int} {A : Secp256k1.Point} (hA : A ≠ 0) (h : a • A = b • A) : a ≡ b [ZMOD N] := by
  have : (a - b) • A = 0 := by rw [sub_zsmul, h]; exact add_neg_cancel (b • A)
  exact (Int.modEq_iff_dvd.2 ((C74_group_order.2.2.2.1 A hA _).1 this)).symm

theorem sbm_int {k : Int} (hk : 0 ≤ k) : s256.scalarBaseMult (intBytes k) = affine (k • B) := by
  obtain ⟨n, rfl⟩ : ∃ n : Nat, k = n := ⟨k.toNat, by omega⟩
  refine (scalarBaseMult_spec _).trans ?_
  rw [beNat_intBytes, Int.natAbs_natCast, ← natCast_zsmul, affine_coords]

theorem sm_int {k : Int} (hk : 0 ≤ k) {A : Secp256k1.Point} {x y : Int} (hA : affine A = (x, y)) :
    s256.scalarMult x y (intBytes k) = affine (k • A) := by
  obtain ⟨n, rfl⟩ : ∃ n : Nat, k = n := ⟨k.toNat, by omega⟩
  have := C74_scalarMult A (intBytes n)
  rw [beNat_intBytes, Int.natAbs_natCast, ← natCast_zsmul, hA] at this
  exact this

theorem affine_zero_iff (A : Secp256k1.Point) : ((affine A).1 = 0 ∧ (affine A).2 = 0) ↔ A = 0 := by
  constructor
  · intro h
    rw [affine_coords] at h
    exact coords_eq_zero h
  · rintro rfl
    exact ⟨rfl, rfl⟩

theorem affine_neg_fst (A : Secp256k1.Point) : (affine (-A)).1 = (affine A).1 := by
  rw [affine_coords, affine_coords]
  rcases point_cases A with rfl | ⟨x, y, h, rfl⟩
  · exact congrArg (fun A => (coords A).1) (neg_zero (G := E.Point))
  · have := congrArg (fun A => (coords A).1) (pt_neg h)
    exact this

theorem inv_mod {a : Int} (h : ¬N ∣ a) : ∃ w, modInverse a N = some w ∧ 0 ≤ w ∧ w < N ∧ a * w ≡ 1 [ZMOD N] := by
  have hg : Int.gcd a N = 1 := by
    have hp := N_prime
    have hN : (N.toNat : Int) = N := by decide
    rw [Int.gcd_comm, ← hN]
    have := (Int.isCoprime_iff_gcd_eq_one (m := (N.toNat : Int)) (n := a)).1
      ((Nat.prime_iff_prime_int.1 hp).coprime_iff_not_dvd.2 (by rw [hN]; exact h))
    exact this
  obtain ⟨w, hw⟩ := Option.isSome_iff_exists.1 (modInverse_isSome.2 hg)
  obtain ⟨h0, h1, h2⟩ := modInverse_spec (by decide) hw
  rw [abs_of_pos N_pos] at h1
  exact ⟨w, hw, h0, h1, h2⟩

theorem not_dvd_range {a : Int} (h1 : 1 ≤ a) (h2 : a < N) : ¬N ∣ a := fun h => by
  have := Int.le_of_dvd (by omega) h
  omega

/-- Cancelling a factor. -/
theorem smul_cancel {s w : Int} (h : s * w ≡ 1 [ZMOD N]) (A : Secp256k1.Point) : w • s • A = A ∧ s • w • A = A := by
  constructor
  · rw [← mul_zsmul, smul_congr (b := 1) (by rwa [mul_comm] at h), one_zsmul]
  · rw [← mul_zsmul, smul_congr (b := 1) h, one_zsmul]

/-! ### C84: verification -/

/-- C84: `Verify` accepts exactly the ECDSA signatures, for every key (infinity included), digest and pair of integers. -/
theorem C84_verify_iff (Q : Secp256k1.Point) (A : ECPoint) (hA : affine Q = (A.x, A.y)) (hash : Bytes) (r s : Int) :
    verify A hash r s = true ↔ ValidSig Q (msgNum hash) r s := by
  unfold verify ValidSig
  by_cases hrange : r ≤ 0 ∨ s ≤ 0 ∨ r ≥ N ∨ s ≥ N
  · rw [if_pos hrange]
    constructor
    · intro h; cases h
    · rintro ⟨h1, h2, h3, h4, -⟩; omega
  rw [if_neg hrange]
  push Not at hrange
  obtain ⟨h1, h2, h3, h4⟩ := hrange
  obtain ⟨w, hw, w0, w1, hsw⟩ := inv_mod (not_dvd_range (a := s) (by omega) (by omega))
  rw [hw]
  simp only
  rw [hashToInt_eq]
  generalize msgNum hash = e
  rw [sbm_int (Int.emod_nonneg _ (by decide)), sm_int (Int.emod_nonneg _ (by decide)) hA, C73_add]
  have c1 : ∀ A : Secp256k1.Point, (e * w % N) • A = w • e • A := fun A => by
    rw [← mul_zsmul, smul_congr (b := w * e)]; exact (Int.mod_modEq _ _).trans (by rw [mul_comm])
  have c2 : ∀ A : Secp256k1.Point, (w * r % N) • A = w • r • A := fun A => by
    rw [← mul_zsmul, smul_congr (b := w * r)]; exact Int.mod_modEq _ _
  rw [c1, c2, ← zsmul_add]
  generalize hT : e • B + r • Q = T
  by_cases hz : w • T = 0
  · rw [if_pos ((affine_zero_iff _).2 hz)]
    constructor
    · intro h; cases h
    · rintro ⟨-, -, -, -, R, hR, hs, -⟩
      rw [← hs, (smul_cancel hsw R).1] at hz
      exact absurd hz hR
  · rw [if_neg (fun h => hz ((affine_zero_iff _).1 h)), beq_iff_eq]
    constructor
    · intro h
      exact ⟨by omega, by omega, by omega, by omega, _, hz, (smul_cancel hsw T).2, h⟩
    · rintro ⟨-, -, -, -, R, hR, hs, hx⟩
      rw [← hs, (smul_cancel hsw R).1]
      exact hx

theorem valid_mirror {Q : Secp256k1.Point} {e r s : Int} (h : ValidSig Q e r s) : ValidSig Q e r (N - s) := by
  obtain ⟨h1, h2, h3, h4, R, hR, hs, hx⟩ := h
  refine ⟨h1, h2, by omega, by omega, -R, ?_, ?_, ?_⟩
  · intro h; apply hR; rw [← neg_neg R, h]; exact neg_zero
  · rw [← hs, smul_congr (b := -s) (by rw [Int.modEq_iff_dvd]; exact ⟨-1, by ring⟩), zsmul_neg, neg_zsmul, neg_neg]
  · rw [affine_neg_fst]; exact hx

/-- C84, deviation: `Verify` does not insist on a low s: with every signature it accepts the mirrored one. -/
theorem C84_verify_mirror (Q : Secp256k1.Point) (A : ECPoint) (hA : affine Q = (A.x, A.y)) (hash : Bytes) (r s : Int) :
    verify A hash r (N - s) = verify A hash r s := by
  rw [Bool.eq_iff_iff, C84_verify_iff Q A hA, C84_verify_iff Q A hA]
  refine ⟨fun h => ?_, valid_mirror⟩
  have := valid_mirror h
  rwa [sub_sub_cancel] at this

/-- C84: only the first 32 bytes of the digest count. -/
theorem C84_truncation (mac : Bytes → Bytes → Bytes) (fuel : Nat) (D : Int) (A : ECPoint) (r s : Int) (h h' : Bytes)
    (e : h.take 32 = h'.take 32) : sign mac fuel D h = sign mac fuel D h' ∧ verify A h r s = verify A h' r s := by
  have hh : hashToInt h = hashToInt h' := by rw [hashToInt_eq, hashToInt_eq]; unfold msgNum; rw [e]
  constructor
  · unfold sign nonceRFC6979 signWith bits2octets
    rw [hh]
  · unfold verify
    rw [hh]

/-! ### C84: signing with a given nonce -/

theorem signWith_cases {k : Int} (h1 : 1 ≤ k) (h2 : k < N) (D : Int) (hash : Bytes) :
    ((affine (k • B)).1 % N = 0 ∧ signWith k D hash = .err .rZero) ∨
    ((affine (k • B)).1 % N ≠ 0 ∧ N ∣ D * ((affine (k • B)).1 % N) + msgNum hash ∧ signWith k D hash = .err .sZero) ∨
    ∃ s : Int, (affine (k • B)).1 % N ≠ 0 ∧ 1 ≤ s ∧ s ≤ N / 2 ∧
      (s * k ≡ D * ((affine (k • B)).1 % N) + msgNum hash [ZMOD N] ∨ -s * k ≡ D * ((affine (k • B)).1 % N) + msgNum hash [ZMOD N]) ∧
      signWith k D hash = .ok ((affine (k • B)).1 % N, s) := by
  obtain ⟨w, hw, w0, w1, hkw⟩ := inv_mod (not_dvd_range h1 h2)
  unfold signWith
  rw [hw]
  simp only
  rw [sbm_int (by omega), hashToInt_eq]
  generalize (affine (k • B)).1 % N = r
  generalize msgNum hash = e
  by_cases hr : r = 0
  · rw [if_pos hr]; exact .inl ⟨hr, rfl⟩
  rw [if_neg hr]
  right
  have hs0 := Int.emod_nonneg ((D * r + e) * w) (show N ≠ 0 by decide)
  have hs1 := Int.emod_lt_of_pos ((D * r + e) * w) N_pos
  have hsk : (D * r + e) * w % N * k ≡ D * r + e [ZMOD N] := by
    calc (D * r + e) * w % N * k ≡ (D * r + e) * w * k [ZMOD N] := (Int.mod_modEq _ _).mul_right k
      _ = (D * r + e) * (k * w) := by ring
      _ ≡ (D * r + e) * 1 [ZMOD N] := hkw.mul_left _
      _ = D * r + e := by ring
  generalize (D * r + e) * w % N = s0 at *
  have hN2 : N % 2 = 1 := by decide
  by_cases hz : s0 = 0
  · left
    subst hz
    rw [if_neg (show ¬(0 : Int) > halfOrder by decide), if_pos rfl]
    refine ⟨hr, ?_, rfl⟩
    rw [zero_mul] at hsk
    exact Int.modEq_zero_iff_dvd.1 hsk.symm
  · right
    by_cases hh : s0 > halfOrder
    · rw [if_pos hh, if_neg (by omega)]
      refine ⟨N - s0, hr, by omega, by unfold halfOrder at hh; omega, .inr ?_, rfl⟩
      refine Int.ModEq.trans ?_ hsk
      rw [Int.modEq_iff_dvd]
      exact ⟨k, by ring⟩
    · rw [if_neg hh, if_neg hz]
      exact ⟨s0, hr, by omega, by unfold halfOrder at hh; omega, .inl hsk, rfl⟩

theorem signWith_valid {k : Int} (h1 : 1 ≤ k) (h2 : k < N) {D : Int} {hash : Bytes} {r s : Int} (h : signWith k D hash = .ok (r, s)) :
    r = (affine (k • B)).1 % N ∧ 1 ≤ r ∧ r < N ∧ 1 ≤ s ∧ s ≤ N / 2 ∧ ValidSig (D • B) (msgNum hash) r s := by
  rcases signWith_cases h1 h2 D hash with ⟨-, e⟩ | ⟨-, -, e⟩ | ⟨s', hr, s1, s2, hs, e⟩
  · rw [e] at h; cases h
  · rw [e] at h; cases h
  rw [e] at h
  injection h with h
  injection h with e1 e2
  subst e2
  rw [e1] at hs hr
  have r0 : 0 ≤ r := by rw [← e1]; exact Int.emod_nonneg _ (by decide)
  have rN : r < N := by rw [← e1]; exact Int.emod_lt_of_pos _ N_pos
  have hNodd : N % 2 = 1 := by decide
  refine ⟨e1.symm, by omega, rN, s1, s2, by omega, rN, s1, by omega, ?_⟩
  have hk : k • B ≠ 0 := fun h => not_dvd_range h1 h2 ((C74_group_order.2.2.2.1 B G_ne_zero k).1 h)
  have sum : ∀ m : Int, m ≡ D * r + msgNum hash [ZMOD N] → m • B = msgNum hash • B + r • D • B := by
    intro m hm
    rw [smul_congr hm, add_zsmul, mul_comm, mul_zsmul, add_comm]
  rcases hs with hs | hs
  · exact ⟨k • B, hk, by rw [← mul_zsmul]; exact sum _ hs, e1⟩
  · refine ⟨-(k • B), ?_, ?_, ?_⟩
    · intro h; apply hk; rw [← neg_neg (k • B), h]; exact neg_zero
    · rw [zsmul_neg, ← neg_zsmul, ← mul_zsmul]; exact sum _ hs
    · rw [affine_neg_fst]; exact e1

/-! ### C84: the nonce -/

namespace spec

/-- RFC 6979, 3.2, steps b to g: the pair (K, V) for a seed. -/
def rfcInit (mac : Bytes → Bytes → Bytes) (seed : Bytes) : Bytes × Bytes :=
  let V0 := List.replicate 32 1
  let K0 := List.replicate 32 0
  let K1 := mac K0 (V0 ++ 0 :: seed)
  let V1 := mac K1 V0
  let K2 := mac K1 (V1 ++ 1 :: seed)
  (K2, mac K2 V1)

/-- RFC 6979, 3.2, step h: (K, V) after i rejected candidates. -/
def rfcState (mac : Bytes → Bytes → Bytes) (seed : Bytes) : Nat → Bytes × Bytes
  | 0 => rfcInit mac seed
  | i + 1 =>
    let KV := rfcState mac seed i
    let V := mac KV.1 KV.2
    let K := mac KV.1 (V ++ [0])
    (K, mac K V)

/-- RFC 6979: the candidate number i. -/
def rfcCandidate (mac : Bytes → Bytes → Bytes) (seed : Bytes) (i : Nat) : Int :=
  beNat (mac (rfcState mac seed i).1 (rfcState mac seed i).2)

/-- RFC 6979: the seed, the key and the reduced message number in 32 bytes each. -/
def rfcSeed (x e : Int) : Bytes := beFixed 32 x.toNat ++ beFixed 32 (e % N).toNat

end spec

theorem int2octets_eq {x : Int} (h : 0 ≤ x) : int2octets x 32 = beFixed 32 x.toNat := by
  unfold int2octets
  simp only
  have hb := beNat_intBytes x
  generalize intBytes x = b at hb
  have hx : x.natAbs = x.toNat := by omega
  rw [hx] at hb
  apply beNat_inj
  · rw [beFixed_length]
    split
    · simp; omega
    · split
      · rw [List.length_drop]; omega
      · omega
  · rw [beNat_beFixed, ← hb]
    split
    · rw [beNat_zeros_append, Nat.mod_eq_of_lt]
      have := beNat_lt b
      exact lt_of_lt_of_le this (Nat.pow_le_pow_right (by decide) (by omega))
    · split
      · rename_i h1 h2
        have hl : (b.drop (b.length - 32)).length = 32 := by rw [List.length_drop]; omega
        have key : ∀ u v : Bytes, beNat (u ++ v) = beNat u * 256 ^ v.length + beNat v := by
          intro u v
          induction u with
          | nil => simp [beNat]
          | cons a u ih => rw [List.cons_append, beNat_cons, beNat_cons, ih, List.length_append, pow_add]; ring
        have := key (b.take (b.length - 32)) (b.drop (b.length - 32))
        rw [List.take_append_drop, hl] at this
        have h3 := beNat_lt (b.drop (b.length - 32))
        rw [hl] at h3
        rw [this, add_comm, Nat.add_mul_mod_self_right, Nat.mod_eq_of_lt h3]
      · rw [Nat.mod_eq_of_lt]
        have := beNat_lt b
        exact lt_of_lt_of_le this (Nat.pow_le_pow_right (by decide) (by omega))

theorem msgNum_range (h : Bytes) : 0 ≤ msgNum h ∧ msgNum h < 2 ^ 256 := by
  unfold msgNum
  refine ⟨by omega, ?_⟩
  have h1 := beNat_lt (h.take 32)
  have h2 : 256 ^ (h.take 32).length ≤ 256 ^ 32 := Nat.pow_le_pow_right (by decide) (by rw [List.length_take]; omega)
  have h3 : (256 : Nat) ^ 32 = 2 ^ 256 := by decide
  have h4 : beNat (h.take 32) < 2 ^ 256 := by omega
  exact_mod_cast h4

theorem bits2octets_eq (h : Bytes) : bits2octets h 32 = beFixed 32 (msgNum h % N).toNat := by
  unfold bits2octets
  rw [hashToInt_eq]
  simp only
  obtain ⟨h0, h1⟩ := msgNum_range h
  have hN : 2 ^ 256 < 2 * N := by decide
  generalize msgNum h = z at *
  split
  · rw [int2octets_eq h0, Int.emod_eq_of_lt h0 (by omega)]
  · rw [int2octets_eq (by omega)]
    congr 2
    rw [← Int.sub_emod_right, Int.emod_eq_of_lt (by omega) (by omega)]

theorem fillT_eq {mac : Bytes → Bytes → Bytes} (hm : ∀ k m, (mac k m).length = 32) (k v : Bytes) : fillT mac k 32 v [] = (mac k v, mac k v) := by
  unfold fillT
  rw [bitLen_N, if_pos (by simp)]
  simp only [List.nil_append]
  unfold fillT
  rw [bitLen_N, if_neg (by rw [hm]; omega)]

theorem hash32 {b : Bytes} (h : b.length = 32) : hashToInt b = beNat b := by
  rw [hashToInt_eq]; unfold msgNum; rw [List.take_of_length_le (by omega)]

theorem nonceLoop_iff {mac : Bytes → Bytes → Bytes} (hm : ∀ k m, (mac k m).length = 32) (seed : Bytes) (k : Int) : ∀ (fuel i0 : Nat),
    nonceLoop mac fuel (rfcState mac seed i0).1 (rfcState mac seed i0).2 = some k ↔ ∃ i, i0 ≤ i ∧ i < i0 + fuel ∧
      rfcCandidate mac seed i = k ∧ 1 ≤ k ∧ k < N ∧ ∀ j, i0 ≤ j → j < i → ¬(1 ≤ rfcCandidate mac seed j ∧ rfcCandidate mac seed j < N)
  | 0, i0 => by
    constructor
    · intro h; cases h
    · rintro ⟨i, h1, h2, -⟩; omega
  | fuel + 1, i0 => by
    unfold nonceLoop
    rw [fillT_eq hm]
    simp only
    rw [hash32 (hm _ _)]
    have ih := nonceLoop_iff hm seed k fuel (i0 + 1)
    change (if rfcCandidate mac seed i0 ≥ 1 ∧ rfcCandidate mac seed i0 < N then some (rfcCandidate mac seed i0) else
      nonceLoop mac fuel (rfcState mac seed (i0 + 1)).1 (rfcState mac seed (i0 + 1)).2) = some k ↔ _
    by_cases hc : rfcCandidate mac seed i0 ≥ 1 ∧ rfcCandidate mac seed i0 < N
    · rw [if_pos hc]
      constructor
      · intro h
        injection h with h
        subst h
        exact ⟨i0, le_refl _, by omega, rfl, hc.1, hc.2, fun j h1 h2 => by omega⟩
      · rintro ⟨i, h1, h2, rfl, h3, h4, h5⟩
        rcases Nat.eq_or_lt_of_le h1 with e | e
        · rw [e]
        · exact absurd hc (h5 i0 (le_refl _) e)
    · rw [if_neg hc, ih]
      constructor
      · rintro ⟨i, h1, h2, h3, h4, h5, h6⟩
        refine ⟨i, by omega, by omega, h3, h4, h5, ?_⟩
        intro j j1 j2
        rcases Nat.eq_or_lt_of_le j1 with e | e
        · rw [← e]; exact hc
        · exact h6 j e j2
      · rintro ⟨i, h1, h2, rfl, h4, h5, h6⟩
        rcases Nat.eq_or_lt_of_le h1 with e | e
        · exact absurd ⟨by rw [e]; exact h4, by rw [e]; exact h5⟩ hc
        · exact ⟨i, e, by omega, rfl, h4, h5, fun j j1 j2 => h6 j (by omega) j2⟩

/-- C84: the nonce is that of RFC 6979: the first candidate of its generator in [1, N - 1], seeded by the key and the reduced message
number. `mac` is any MAC with 32-byte outputs. -/
theorem C84_nonce (mac : Bytes → Bytes → Bytes) (hm : ∀ k m, (mac k m).length = 32) (fuel : Nat) (D : Int) (hD : 0 ≤ D) (hash : Bytes)
    (k : Int) :
    nonceRFC6979 mac fuel D hash = some k ↔ ∃ i < fuel, rfcCandidate mac (rfcSeed D (msgNum hash)) i = k ∧ 1 ≤ k ∧ k < N ∧
      ∀ j < i, ¬(1 ≤ rfcCandidate mac (rfcSeed D (msgNum hash)) j ∧ rfcCandidate mac (rfcSeed D (msgNum hash)) j < N) := by
  have hk := nonceLoop_iff hm (rfcSeed D (msgNum hash)) k fuel 0
  have e : nonceRFC6979 mac fuel D hash = nonceLoop mac fuel (rfcState mac (rfcSeed D (msgNum hash)) 0).1
      (rfcState mac (rfcSeed D (msgNum hash)) 0).2 := by
    unfold nonceRFC6979
    rw [bitLen_N]
    simp only
    rw [show (256 + 7) / 8 = 32 from rfl, int2octets_eq hD, bits2octets_eq]
    change nonceLoop mac fuel _ _ = nonceLoop mac fuel (rfcInit mac (rfcSeed D (msgNum hash))).1 (rfcInit mac (rfcSeed D (msgNum hash))).2
    unfold rfcInit rfcSeed
    simp only [List.append_assoc, List.singleton_append]
  rw [e, hk]
  constructor
  · rintro ⟨i, -, h2, h3, h4, h5, h6⟩
    exact ⟨i, by omega, h3, h4, h5, fun j hj => h6 j (by omega) hj⟩
  · rintro ⟨i, h2, h3, h4, h5, h6⟩
    exact ⟨i, by omega, by omega, h3, h4, h5, fun j _ hj => h6 j hj⟩

/-- The nonce is in range (for any MAC). -/
theorem nonceLoop_range (mac : Bytes → Bytes → Bytes) : ∀ (fuel : Nat) (K V : Bytes) (k : Int), nonceLoop mac fuel K V = some k →
    1 ≤ k ∧ k < N
  | 0, _, _, _, h => by cases h
  | fuel + 1, K, V, k, h => by
    unfold nonceLoop at h
    simp only at h
    split at h
    · rename_i hc
      injection h with h
      subst h
      exact hc
    · exact nonceLoop_range mac fuel _ _ k h

/-- C84, deviation: of a key of more than 32 bytes only the last 32 enter the nonce: keys that differ by a multiple of 2^256 use the
same nonces. -/
theorem C84_long_key (mac : Bytes → Bytes → Bytes) (fuel : Nat) (D : Int) (hD : 0 ≤ D) (c : Nat) (hash : Bytes) :
    nonceRFC6979 mac fuel (D + c * 2 ^ 256) hash = nonceRFC6979 mac fuel D hash := by
  unfold nonceRFC6979
  rw [bitLen_N]
  simp only
  rw [show (256 + 7) / 8 = 32 from rfl, int2octets_eq hD, int2octets_eq (by positivity)]
  have : beFixed 32 (D + c * 2 ^ 256).toNat = beFixed 32 D.toNat := by
    apply beNat_inj
    · simp
    · rw [beNat_beFixed, beNat_beFixed]
      have e : (D + c * 2 ^ 256).toNat = D.toNat + c * 256 ^ 32 := by
        have : (256 : Nat) ^ 32 = 2 ^ 256 := by decide
        rw [this]
        obtain ⟨d, rfl⟩ : ∃ d : Nat, D = d := ⟨D.toNat, by omega⟩
        have : ((d : Int) + c * 2 ^ 256) = ((d + c * 2 ^ 256 : Nat) : Int) := by push_cast; rfl
        rw [this, Int.toNat_natCast, Int.toNat_natCast]
      rw [e, Nat.add_mul_mod_self_right]
  rw [this]

/-! ### C84: signing -/

/-- C84: what `Sign` returns: 1 ≤ r < N, 1 ≤ s ≤ N/2, a signature of the digest that `Verify` accepts under D·G. -/
theorem C84_sign_valid (mac : Bytes → Bytes → Bytes) (fuel : Nat) (D : Int) (hash : Bytes) (r s : Int)
    (h : sign mac fuel D hash = some (.ok (r, s))) :
    1 ≤ r ∧ r < N ∧ 1 ≤ s ∧ s ≤ N / 2 ∧ ValidSig (D • B) (msgNum hash) r s ∧
    ∀ A : ECPoint, affine (D • B) = (A.x, A.y) → verify A hash r s = true := by
  unfold sign at h
  cases hk : nonceRFC6979 mac fuel D hash with
  | none => rw [hk] at h; cases h
  | some k =>
    rw [hk] at h
    simp only [Option.map_some, Option.some.injEq] at h
    obtain ⟨k1, k2⟩ : 1 ≤ k ∧ k < N := nonceLoop_range mac fuel _ _ k hk
    obtain ⟨-, a, b, c, d, v⟩ := signWith_valid k1 k2 h
    exact ⟨a, b, c, d, v, fun A hA => (C84_verify_iff (D • B) A hA hash r s).2 v⟩

/-- C84: `Sign` never panics, and fails exactly when r or s would be zero: the x-coordinate of k·G is a multiple of N, or N divides
D·r + e, where k is the nonce. -/
theorem C84_sign_outcome (mac : Bytes → Bytes → Bytes) (fuel : Nat) (D : Int) (hash : Bytes) (k : Int)
    (hk : nonceRFC6979 mac fuel D hash = some k) :
    (1 ≤ k ∧ k < N) ∧ sign mac fuel D hash ≠ some .panic ∧
    (sign mac fuel D hash = some (.err .rZero) ↔ N ∣ (affine (k • B)).1) ∧
    (sign mac fuel D hash = some (.err .sZero) ↔ ¬N ∣ (affine (k • B)).1 ∧ N ∣ D * (affine (k • B)).1 + msgNum hash) ∧
    (∀ r s, sign mac fuel D hash = some (.ok (r, s)) → r = (affine (k • B)).1 % N ∧
      (N ∣ s * k - (D * r + msgNum hash) ∨ N ∣ s * k + (D * r + msgNum hash))) := by
  obtain ⟨k1, k2⟩ : 1 ≤ k ∧ k < N := nonceLoop_range mac fuel _ _ k hk
  have e : sign mac fuel D hash = some (signWith k D hash) := by unfold sign; rw [hk]; rfl
  rw [e]
  generalize hx : (affine (k • B)).1 = x
  have hd : N ∣ x ↔ x % N = 0 := Int.dvd_iff_emod_eq_zero
  have hd2 : N ∣ D * (x % N) + msgNum hash ↔ N ∣ D * x + msgNum hash := by
    have : D * (x % N) + msgNum hash ≡ D * x + msgNum hash [ZMOD N] := ((Int.mod_modEq x N).mul_left D).add_right _
    rw [Int.dvd_iff_emod_eq_zero, Int.dvd_iff_emod_eq_zero, this]
  rw [hd, ← hd2]
  have hc := signWith_cases k1 k2 D hash
  rw [hx] at hc
  rcases hc with ⟨a, h⟩ | ⟨a, b, h⟩ | ⟨s, a, s1, s2, hs, h⟩
  · rw [h]
    exact ⟨⟨k1, k2⟩, by simp, by simp [a], by simp [a], by simp⟩
  · rw [h]
    exact ⟨⟨k1, k2⟩, by simp, by simp [a], by simp [a, b], by simp⟩
  · rw [h]
    refine ⟨⟨k1, k2⟩, by simp, by simp [a], ?_, ?_⟩
    · simp only [Option.some.injEq, reduceCtorEq, false_iff, not_and]
      intro _ hb
      have hsk : N ∣ s * k := by
        rcases hs with hs | hs
        · exact Int.modEq_zero_iff_dvd.1 (hs.trans (Int.modEq_zero_iff_dvd.2 hb))
        · have := Int.modEq_zero_iff_dvd.1 (hs.trans (Int.modEq_zero_iff_dvd.2 hb))
          rwa [neg_mul, dvd_neg] at this
      have hp : Prime N := by
        have := Nat.prime_iff_prime_int.1 N_prime
        rwa [show (N.toNat : Int) = N by decide] at this
      have hN2 : N % 2 = 1 := by decide
      rcases hp.dvd_or_dvd hsk with h | h
      · exact not_dvd_range s1 (by omega) h
      · exact not_dvd_range k1 k2 h
    · intro r' s' e
      simp only [Option.some.injEq, Res.ok.injEq, Prod.mk.injEq] at e
      obtain ⟨rfl, rfl⟩ := e
      refine ⟨rfl, ?_⟩
      rcases hs with hs | hs
      · exact .inl hs.symm.dvd
      · right
        have := hs.dvd
        rwa [neg_mul, sub_neg_eq_add, add_comm] at this

/-- C84: an instance: with the MAC that always returns 1 the nonce is 1, so r is the x-coordinate of the base point. -/
theorem C84_example (D : Int) (hash : Bytes) (hs : ¬N ∣ D * Gx + msgNum hash) :
    ∃ s, sign (fun _ _ => beFixed 32 1) 1 D hash = some (.ok (Gx, s)) := by
  have hl : ∀ k m : Bytes, ((fun _ _ => beFixed 32 1 : Bytes → Bytes → Bytes) k m).length = 32 := fun _ _ => beFixed_length _ _
  have hn : nonceRFC6979 (fun _ _ => beFixed 32 1) 1 D hash = some 1 := by
    unfold nonceRFC6979 nonceLoop
    simp only
    rw [fillT_eq hl]
    simp only
    rw [hash32 (beFixed_length _ _), beNat_beFixed]
    decide
  have hx : (affine ((1 : Int) • B)).1 = Gx := by rw [one_zsmul, base_affine]
  have hg : Gx % N = Gx := by decide
  have hc := signWith_cases (k := 1) (by decide) (by decide) D hash
  rw [hx, hg] at hc
  unfold sign
  rw [hn]
  rcases hc with ⟨a, h⟩ | ⟨a, b, h⟩ | ⟨s, a, s1, s2, -, h⟩
  · exact absurd a (by decide)
  · exact absurd b hs
  · exact ⟨s, congrArg some h⟩

/-- The hypothesis of the instance holds for the key 1 and the empty digest. -/
theorem C84_example_meets : ¬N ∣ 1 * Gx + msgNum [] := by
  have : msgNum [] = 0 := rfl
  rw [this]
  decide

end Tss.Secp
