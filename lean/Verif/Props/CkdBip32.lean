import Verif.Props.ExtKey
import Verif.Lemmas.Ed25519Enc
/-
Property C70: one derivation step is BIP32's child key derivation, written out independently below, except where stated.
-/
namespace Tss.Ckd
open Tss

/-! ### Specification: BIP32 -/

/-- ser₃₂: four octets, most significant first. -/
def spec.ser32 (i : Nat) : Bytes :=
  [UInt8.ofNat (i / 2 ^ 24), UInt8.ofNat (i / 2 ^ 16), UInt8.ofNat (i / 2 ^ 8), UInt8.ofNat i]

/-- ser₂₅₆: 32 octets, most significant first. -/
def spec.ser256 (n : Nat) : Bytes := (List.range 32).map fun j => UInt8.ofNat (n / 2 ^ (8 * (31 - j)))

/-- serₚ: the parity of y, then x. -/
def spec.serP (p : ECPoint) : Bytes := (if p.y % 2 = 0 then 2 else 3) :: spec.ser256 p.x.toNat

/-- The message of the HMAC: 0x00 ‖ key ‖ ser₃₂(i + 2³¹) hardened, serₚ(point) ‖ ser₃₂(i) otherwise. The library hashes the octets of
its key buffer as they are; BIP32 wants ser₂₅₆ of the number, i.e. 32 octets. -/
def spec.ckdData (hard : Bool) (priv : Bytes) (point : ECPoint) (i : Nat) : Bytes :=
  if hard then 0 :: priv ++ spec.ser32 (i + 2 ^ 31) else spec.serP point ++ spec.ser32 i

/-! ### Encodings -/

theorem ser256_length (n : Nat) : (spec.ser256 n).length = 32 := by simp [spec.ser256]

theorem beFixed_succ (k n : Nat) : beFixed (k + 1) n = beFixed k (n / 256) ++ [UInt8.ofNat n] := by
  simp [beFixed, leFixed]

theorem ser32_eq (n : Nat) : spec.ser32 n = beFixed 4 n := by
  rw [beFixed_succ, beFixed_succ, beFixed_succ, beFixed_succ]
  simp only [beFixed, leFixed, List.reverse_nil, List.nil_append, List.cons_append, spec.ser32, Nat.div_div_eq_div_mul]
  norm_num

theorem ser256_eq (n : Nat) : spec.ser256 n = beFixed 32 n := by
  have : ∀ k n, beFixed k n = (List.range k).map fun j => UInt8.ofNat (n / 2 ^ (8 * (k - 1 - j))) := by
    intro k
    induction k with
    | zero => intro n; rfl
    | succ k ih =>
      intro n
      rw [beFixed_succ, ih, List.range_succ, List.map_append]
      congr 1
      · apply List.map_congr_left
        intro j hj
        rw [List.mem_range] at hj
        rw [Nat.div_div_eq_div_mul, show (256 : Nat) = 2 ^ 8 by norm_num, ← pow_add]
        congr 3; omega
      · simp
  exact (this 32 n).symm

theorem serP_eq {p : ECPoint} (h0 : 0 ≤ p.x) (h : p.x < 2 ^ 256) : serializeCompressed p.x p.y = spec.serP p := by
  unfold serializeCompressed spec.serP
  obtain ⟨l, e⟩ := paddedBytes_int h0 h
  congr 1
  · rcases Int.emod_two_eq_zero_or_one p.y with h | h <;> simp [h]
  · rw [ser256_eq]
    apply beNat_inj
    · rw [l, beFixed_length]
    · rw [beNat_beFixed, Nat.mod_eq_of_lt (by norm_num; omega)]; omega

theorem or_hard {i : Nat} (h : i < 2 ^ 31) : i ||| 0x80000000 = i + 2 ^ 31 := by
  have := Nat.two_pow_add_eq_or_of_lt (i := 31) h 1
  rw [Nat.or_comm]; rw [mul_one] at this; rw [show (0x80000000 : Nat) = 2 ^ 31 by norm_num, ← this]; omega

theorem data_eq {p : ECPoint} (h0 : 0 ≤ p.x) (h : p.x < 2 ^ 256) {i : Nat} (hi : i < 2 ^ 31) (hard : Bool) (priv : Bytes) :
    (if hard = true then 0 :: priv else serializeCompressed p.x p.y) ++ uint32ToBytes (if hard = true then i ||| 0x80000000 else i) =
      spec.ckdData hard priv p i := by
  unfold spec.ckdData uint32ToBytes
  cases hard with
  | true => simp only [if_true]; rw [or_hard hi, ser32_eq]
  | false => simp only [Bool.false_eq_true, if_false]; rw [serP_eq h0 h, ser32_eq]

/-! ### C70 -/

/-- C70 (Ed25519 variant), what a step returns: with I = HMAC-SHA512(chain code, message) the tweak is the first 32 octets of I
modulo the group order and not zero, the child's chain code is the rest of I, both points move by tweak·G, the private key is the
parent's plus the tweak modulo the order; depth, child number, fingerprint and version are as BIP32 says. -/
theorem C70_eddsa_step {E : Env} {G : Type} [AddCommGroup G] (L : PLawful E.curve G) {i : Nat} {hard : Bool} {pk k : KeyD} {il : Int}
    (hp : E.curve.On pk.pub) (hd : E.curve.On pk.deduce) (h0 : 0 ≤ pk.deduce.x) (h1 : pk.deduce.x < 2 ^ 256)
    (h : deriveChildKeyD E i hard pk = .ok (il, k)) :
    i < 2 ^ 31 ∧ pk.depth ≠ 255 ∧
    il = (beNat ((E.hmac512 pk.chainCode (spec.ckdData hard pk.priv pk.deduce i)).take 32) : Int) % E.curve.N ∧ il ≠ 0 ∧
    k.chainCode = (E.hmac512 pk.chainCode (spec.ckdData hard pk.priv pk.deduce i)).drop 32 ∧
    L.val k.pub = L.val pk.pub + il • L.base ∧ L.val k.deduce = L.val pk.deduce + il • L.base ∧
    k.priv = intBytes (((beNat pk.priv : Int) + il) % E.curve.N) ∧
    k.depth = pk.depth + 1 ∧ k.childIndex = (if hard then i + 2 ^ 31 else i) ∧
    k.parentFP = (E.hash160 (spec.serP pk.deduce)).take 4 ∧ k.version = pk.version := by
  obtain ⟨a1, a2, a3, a4, a5, a6, a7, a8, a9, a10, a11⟩ := deriveChildKeyD_ok L hp hd h
  unfold deriveChildKeyD at h
  rw [if_neg (by unfold hardenedKeyStart; omega), if_neg (show ¬ pk.depth = maxDepth from a10)] at h
  simp only at h
  rw [data_eq h0 h1 a11, serP_eq h0 h1] at h
  refine ⟨a11, a10, ?_⟩
  rw [add_comm (beNat pk.priv : Int) il]
  split at h
  · cases h
  · split at h
    · cases h
    · split at h
      · cases h
      · split at h
        · cases h
        · split at h
          · cases h
          · simp only [Res.ok.injEq, Prod.mk.injEq] at h
            obtain ⟨e1, rfl⟩ := h
            refine ⟨e1.symm, by omega, rfl, a5, a6, a8, a9, ?_, rfl, rfl⟩
            cases hard with
            | true => simp only [if_true]; exact or_hard a11
            | false => rfl

/-- C70 (secp256k1 variant): the same, but the first 32 octets of I are not reduced: a value of at least the order is an error, as in
BIP32. `sN` is the order of secp256k1. -/
theorem C70_secp_step {E : Env} {sN : Int} {G : Type} [AddCommGroup G] (L : PLawful E.curve G) {i : Nat} {hard : Bool} {pk k : Key}
    {il : Int} (hx : ∀ d, pk.deduce = some d → 0 ≤ d.x ∧ d.x < 2 ^ 256) (h : deriveChildKey E sN i hard pk = .ok (il, k)) :
    ∃ p d p' d', pk.pub = some p ∧ pk.deduce = some d ∧ k.pub = some p' ∧ k.deduce = some d' ∧
    i < 2 ^ 31 ∧ pk.depth ≠ 255 ∧
    il = (beNat ((E.hmac512 pk.chainCode (spec.ckdData hard pk.priv d i)).take 32) : Int) ∧ 0 < il ∧ il < E.curve.N ∧
    k.chainCode = (E.hmac512 pk.chainCode (spec.ckdData hard pk.priv d i)).drop 32 ∧
    L.val p' = L.val p + il • L.base ∧ L.val d' = L.val d + il • L.base ∧
    k.priv = intBytes (((beNat pk.priv : Int) + il) % sN) ∧
    k.depth = pk.depth + 1 ∧ k.childIndex = (if hard then i + 2 ^ 31 else i) ∧
    k.parentFP = (E.hash160 (spec.serP d)).take 4 ∧ k.version = pk.version := by
  obtain ⟨p, d, p', d', b1, b2, b3, b4, b5, b6, b7, b8, a1, a2, a5, a6, a7, a8, a9, a10, a11⟩ := deriveChildKey_ok L h
  refine ⟨p, d, p', d', b1, b2, b3, b4, a11, a10, ?_⟩
  obtain ⟨x0, x1⟩ := hx d b2
  unfold deriveChildKey at h
  rw [if_neg (by unfold hardenedKeyStart; omega), if_neg (show ¬ pk.depth = maxDepth from a10), b1, b2, newPoint_on b5, newPoint_on b6] at h
  simp only at h
  rw [data_eq x0 x1 a11, serP_eq x0 x1] at h
  rw [add_comm (beNat pk.priv : Int) il]
  split at h
  · cases h
  · split at h
    · cases h
    · split at h
      · cases h
      · split at h
        · cases h
        · split at h
          · cases h
          · simp only [Res.ok.injEq, Prod.mk.injEq] at h
            obtain ⟨e1, rfl⟩ := h
            refine ⟨e1.symm, a1, a2, rfl, a5, a6, a8, a9, ?_, rfl, rfl⟩
            cases hard with
            | true => simp only [if_true]; exact or_hard a11
            | false => rfl

/-- C70: hardened derivation hashes what BIP32 hashes exactly when the parent's key buffer has 32 octets. Derived keys are stored
without leading zero octets, so from a child key below 2²⁴⁸ hardened derivation departs from BIP32. -/
theorem C70_hardened_message (priv : Bytes) (p : ECPoint) (i : Nat) :
    spec.ckdData true priv p i = 0 :: spec.ser256 (beNat priv) ++ spec.ser32 (i + 2 ^ 31) ↔ priv.length = 32 := by
  unfold spec.ckdData
  simp only [if_true]
  rw [List.append_left_inj, List.cons.injEq]
  constructor
  · rintro ⟨-, h⟩; rw [h, ser256_length]
  · intro h
    refine ⟨rfl, ?_⟩
    rw [ser256_eq, ← h, beFixed_beNat]

theorem C70_hardened_after_small_child {E : Env} {G : Type} [AddCommGroup G] (L : PLawful E.curve G) {i : Nat} {hard : Bool}
    {pk k : KeyD} {il : Int} (hp : E.curve.On pk.pub) (hd : E.curve.On pk.deduce) (h : deriveChildKeyD E i hard pk = .ok (il, k))
    (hs : ((beNat pk.priv : Int) + il) % E.curve.N < 2 ^ 248) (j : Nat) :
    spec.ckdData true k.priv k.deduce j ≠ 0 :: spec.ser256 (beNat k.priv) ++ spec.ser32 (j + 2 ^ 31) := by
  rw [ne_eq, C70_hardened_message]
  obtain ⟨-, -, -, -, -, -, -, a8, -⟩ := deriveChildKeyD_ok L hp hd h
  rw [a8, add_comm]
  have h0 := Int.emod_nonneg ((beNat pk.priv : Int) + il) (show E.curve.N ≠ 0 by have := L.N_pos; omega)
  unfold intBytes
  have := natBE_length_le (((beNat pk.priv : Int) + il) % E.curve.N).natAbs 31 (by norm_num; omega)
  omega

/-! ### The Ed25519 step only fails for the reasons BIP32 knows -/

open Ed Edw Edw.Pt in
/-- A point of odd order other than the neutral one has no zero coordinate. -/
theorem coords_ne_zero {g : Point} (hg : g ≠ 0) (ho : Ed.ord • g = 0) : (coords g).1 ≠ 0 ∧ (coords g).2 ≠ 0 := by
  have four : (4 : ℕ) • g ≠ 0 := by
    intro h4
    have hc : Nat.Coprime 4 Ed.ord := by decide +kernel
    have h1 : addOrderOf g ∣ 4 := addOrderOf_dvd_of_nsmul_eq_zero h4
    have h2 : addOrderOf g ∣ Ed.ord := addOrderOf_dvd_of_nsmul_eq_zero ho
    have h3 := Nat.dvd_gcd h1 h2
    rw [hc] at h3
    have := AddMonoid.addOrderOf_eq_one_iff.mp (Nat.dvd_one.mp h3)
    exact hg this
  have dbl : (g + g) + (g + g) ≠ 0 := by
    intro h; apply four; rw [show (4 : ℕ) = 2 + 2 by rfl, add_nsmul, two_nsmul]; exact h
  have on := g.on
  unfold OnC at on
  have vz : ∀ a : F, ((a.val : Nat) : Int) = 0 → a = 0 := by
    intro a h
    have h' : a.val = 0 := by exact_mod_cast h
    exact (ZMod.val_eq_zero a).mp h'
  constructor
  · intro h
    have hx : g.x = 0 := vz _ h
    rw [hx] at on
    have hy : g.y ^ 2 = 1 := by linear_combination on
    apply dbl
    have : g + g = 0 := by
      ext
      · rw [add_x]; unfold addX; rw [hx]; change _ = (0 : F); simp
      · rw [add_y]; unfold addY; rw [hx]; exact Eq.trans (b := g.y ^ 2) (by simp [pow_two]) hy
    rw [this, add_zero]
  · intro h
    have hy : g.y = 0 := vz _ h
    rw [hy] at on
    have hx : g.x ^ 2 = -1 := by linear_combination -on
    apply dbl
    have x2 : (g + g).x = 0 := by rw [add_x]; unfold addX; rw [hy]; simp
    have y2 : (g + g).y = -1 := by rw [add_y]; unfold addY; rw [hy, ← hx]; simp; ring
    ext
    · rw [add_x]; unfold addX; rw [x2]; change _ = (0 : F); simp
    · rw [add_y]; unfold addY; rw [x2, y2]; change _ = (1 : F); simp

theorem step_unf {E : Env} {i : Nat} {hard : Bool} {pk : KeyD} (h0 : 0 ≤ pk.deduce.x) (h1 : pk.deduce.x < 2 ^ 256) (hi : i < 2 ^ 31)
    (hdep : pk.depth ≠ 255) (il : Int)
    (hil : il = (beNat ((E.hmac512 pk.chainCode (spec.ckdData hard pk.priv pk.deduce i)).take 32) : Int) % E.curve.N) :
    (il = 0 → deriveChildKeyD E i hard pk = .err .invalidDerived) ∧
    (∀ dG c d, il ≠ 0 → il < E.curve.N → ECPoint.scalarBaseMult E.curve il = some dG → dG.x ≠ 0 → dG.y ≠ 0 →
      ECPoint.add E.curve pk.pub dG = some c → ECPoint.add E.curve pk.deduce dG = some d →
      ∃ k, deriveChildKeyD E i hard pk = .ok (il, k)) := by
  unfold deriveChildKeyD
  rw [if_neg (by unfold hardenedKeyStart; omega), if_neg (show ¬ pk.depth = maxDepth from hdep)]
  simp only
  rw [data_eq h0 h1 hi, ← hil]
  constructor
  · intro h; rw [if_pos (Or.inr h)]
  · intro dG c d z lt e x0 y0 ec ed
    rw [if_neg (by push Not; exact ⟨lt, z⟩), e]
    simp only
    rw [if_neg (by push Not; exact ⟨x0, y0⟩), ec]
    simp only
    rw [ed]
    exact ⟨_, rfl⟩

/-- C70 (Ed25519), when a step succeeds: index below 2³¹, depth below the maximum and a tweak that is not zero; nothing else, since
no multiple of the base point has a zero coordinate and sums of points stay on the curve. Otherwise it is an error, never a crash. -/
theorem C70_eddsa_step_succeeds {E : Env} (hE : E.curve = Ed.curve) (i : Nat) (hard : Bool) (pk : KeyD) (hp : Ed.curve.On pk.pub)
    (hd : Ed.curve.On pk.deduce) (h0 : 0 ≤ pk.deduce.x) (h1 : pk.deduce.x < 2 ^ 256) :
    ((∃ il k, deriveChildKeyD E i hard pk = .ok (il, k)) ↔
      i < 2 ^ 31 ∧ pk.depth ≠ 255 ∧
        (beNat ((E.hmac512 pk.chainCode (spec.ckdData hard pk.priv pk.deduce i)).take 32)) % Ed.ord ≠ 0) ∧
    deriveChildKeyD E i hard pk ≠ .panic := by
  by_cases hi : i < 2 ^ 31
  swap
  · have e : deriveChildKeyD E i hard pk = .err .indexHardened := by
      unfold deriveChildKeyD; rw [if_pos (by unfold hardenedKeyStart; omega)]
    rw [e]; simp only [reduceCtorEq, exists_false, false_iff]; exact ⟨fun h => hi h.1, by simp⟩
  by_cases hdep : pk.depth = 255
  · have e : deriveChildKeyD E i hard pk = .err .maxDepth := by
      unfold deriveChildKeyD
      rw [if_neg (by unfold hardenedKeyStart; omega), if_pos (show pk.depth = maxDepth from hdep)]
    rw [e]; simp [hdep]
  have hN : Ed.curve.N = (Ed.ord : Int) := rfl
  obtain ⟨u1, u2⟩ := step_unf (E := E) (hard := hard) h0 h1 hi hdep _ rfl
  rw [hE] at u1 u2
  generalize E.hmac512 pk.chainCode (spec.ckdData hard pk.priv pk.deduce i) = ilr at u1 u2 ⊢
  have hz : (beNat (ilr.take 32) : Int) % Ed.curve.N = ((beNat (ilr.take 32) % Ed.ord : ℕ) : Int) := by rw [hN]; push_cast; rfl
  rw [hz] at u1 u2
  have hlt : beNat (ilr.take 32) % Ed.ord < Ed.ord := Nat.mod_lt _ Ed.ord_prime.pos
  generalize beNat (ilr.take 32) % Ed.ord = t at hlt u1 u2 ⊢
  by_cases t0 : t = 0
  · rw [u1 (by simp [t0])]; simp [t0]
  · have hbase : Ed.lawful.base = Ed.B := rfl
    have hpt : Ed.lawful.pt (((t : ℕ) : Int) • Ed.lawful.base) = ⟨(Ed.coords (t • Ed.B)).1, (Ed.coords (t • Ed.B)).2⟩ := by
      rw [natCast_zsmul, hbase]; rfl
    have nz := coords_ne_zero (g := t • Ed.B) (by
        intro h
        have h1 : addOrderOf Ed.B ∣ t := addOrderOf_dvd_of_nsmul_eq_zero h
        have h2 : addOrderOf Ed.B ∣ Ed.ord := addOrderOf_dvd_of_nsmul_eq_zero Ed.ord_smul_B
        rcases (Nat.dvd_prime Ed.ord_prime).mp h2 with e | e
        · exact Ed.B_ne_zero (AddMonoid.addOrderOf_eq_one_iff.mp e)
        · rw [e] at h1
          have := Nat.le_of_dvd (by omega) h1
          omega) (by rw [smul_comm, Ed.ord_smul_B, smul_zero])
    have hon : Ed.curve.On (Ed.lawful.pt (((t : ℕ) : Int) • Ed.lawful.base)) := Ed.lawful.on_pt _
    obtain ⟨k, hk⟩ := u2 _ _ _ (by omega) (by rw [hN]; omega) (Ed.lawful.scalarBaseMult_pt (t : Int)) (by rw [hpt]; exact nz.1)
      (by rw [hpt]; exact nz.2) (Ed.lawful.add_pt hp hon) (Ed.lawful.add_pt hd hon)
    rw [hk]
    exact ⟨⟨fun _ => ⟨hi, hdep, t0⟩, fun _ => ⟨_, _, rfl⟩⟩, by simp⟩

/-- A stand-in HMAC of 64 octets. -/
def toyHmac (a b : Bytes) : Bytes := beFixed 64 ((beNat a + beNat b + 1) * 2 ^ 256 + 5)

/-- The base point as a key. -/
def baseKey : KeyD :=
  newExtendKeyD ⟨Ed.curve, fun b => beFixed 20 (beNat b), toyHmac⟩ [1] ⟨Ed.Bx, Ed.By⟩ ⟨Ed.Bx, Ed.By⟩ 0 0 [7]

/-- The hypotheses hold of the base point, and a step from it succeeds, hardened or not. -/
example (hard : Bool) : ∃ il k, deriveChildKeyD ⟨Ed.curve, fun b => beFixed 20 (beNat b), toyHmac⟩ 44 hard baseKey = .ok (il, k) := by
  have on : Ed.curve.On baseKey.pub := by
    change Ed.curve.isOnCurve (Ed.Bx : Nat) (Ed.By : Nat) = true; decide +kernel
  refine ((C70_eddsa_step_succeeds rfl 44 hard baseKey on on (by simp [baseKey, newExtendKeyD]) ?_).1).mpr ⟨by norm_num, by decide, ?_⟩
  · simp only [baseKey, newExtendKeyD, Ed.Bx]; norm_num
  · cases hard <;> decide +kernel

end Tss.Ckd
