import Verif.Model.ExtKey
import Verif.Lemmas.PrimesSecp
import Verif.Lemmas.Go
import Verif.Lemmas.Ckd
import Mathlib.FieldTheory.Finite.Basic
/-
Property C49 (string form of extended keys).
-/
namespace Tss.Ckd
open Tss

/-! ### Square roots modulo the secp256k1 prime -/

theorem secpP_eq : secpP = 2 ^ 256 - 2 ^ 32 - 977 := rfl

theorem secpP_pos : 0 < secpP := by norm_num [secpP]

theorem secp_prime : Nat.Prime secpP := PrimesSecp.secp_p_prime

/-- The power (P+1)/4 of a square is one of its square roots. -/
theorem sqrt_pow {a y : Nat} (hy : y < secpP) (h : y * y % secpP = a % secpP) :
    powMod a ((secpP + 1) / 4) secpP = y ∨ powMod a ((secpP + 1) / 4) secpP = secpP - y := by
  haveI : Fact secpP.Prime := ⟨secp_prime⟩
  rw [powMod_eq]
  have hz : ((a : ℕ) : ZMod secpP) = (y : ZMod secpP) * y := by
    rw [← Nat.cast_mul]; exact ((ZMod.natCast_eq_natCast_iff _ _ _).mpr h).symm
  have hs : (((a ^ ((secpP + 1) / 4) % secpP : ℕ) : ZMod secpP)) ^ 2 = (y : ZMod secpP) ^ 2 := by
    rw [ZMod.natCast_mod, Nat.cast_pow, hz, ← pow_two, ← pow_mul, ← pow_mul]
    have e : 2 * ((secpP + 1) / 4 * 2) = secpP + 1 := by norm_num [secpP]
    rw [e, pow_succ, ZMod.pow_card, pow_two]
  have hlt : a ^ ((secpP + 1) / 4) % secpP < secpP := Nat.mod_lt _ secpP_pos
  generalize a ^ ((secpP + 1) / 4) % secpP = r at hs hlt
  rcases sq_eq_sq_iff_eq_or_eq_neg.mp hs with h1 | h1
  · left
    have := (ZMod.natCast_eq_natCast_iff' _ _ _).mp h1
    rwa [Nat.mod_eq_of_lt hlt, Nat.mod_eq_of_lt hy] at this
  · by_cases y0 : y = 0
    · left
      subst y0
      rw [Nat.cast_zero, neg_zero] at h1
      have := (ZMod.natCast_eq_zero_iff _ _).mp h1
      exact Nat.eq_zero_of_dvd_of_lt this hlt
    · right
      have h2 : ((r + y : ℕ) : ZMod secpP) = 0 := by rw [Nat.cast_add, h1]; ring
      have h3 := (ZMod.natCast_eq_zero_iff _ _).mp h2
      obtain ⟨k, hk⟩ := h3
      have : k = 1 := by
        rcases Nat.lt_trichotomy k 1 with hh | hh | hh
        · have : k = 0 := by omega
          subst this; omega
        · exact hh
        · have : secpP * 2 ≤ secpP * k := Nat.mul_le_mul_left _ hh
          omega
      subst this; omega

theorem secpP_odd : secpP % 2 = 1 := by norm_num [secpP]

/-- `decompressPoint x odd` returns the one number below P whose square is x³ + 7 modulo P and whose parity is the asked one, and
fails when there is none. -/
theorem decompressPoint_iff (x : Nat) (odd : Bool) (y : Nat) :
    decompressPoint x odd = some y ↔ y < secpP ∧ y * y % secpP = (x ^ 3 + 7) % secpP ∧ (odd = true ↔ y % 2 = 1) := by
  have hp := secpP_pos
  have ho := secpP_odd
  unfold decompressPoint
  simp only
  generalize hx : (x ^ 3 + 7) % secpP = a
  have ha : a % secpP = a := by rw [← hx, Nat.mod_mod]
  have hlt : powMod a ((secpP + 1) / 4) secpP < secpP := by rw [powMod_eq]; exact Nat.mod_lt _ hp
  have key := @sqrt_pow a
  generalize powMod a ((secpP + 1) / 4) secpP = y0 at hlt key
  constructor
  · intro h
    have hl : (if (odd != decide (y0 % 2 = 1)) = true then (secpP - y0) % secpP else y0) < secpP := by
      split
      · exact Nat.mod_lt _ hp
      · exact hlt
    generalize (if (odd != decide (y0 % 2 = 1)) = true then (secpP - y0) % secpP else y0) = z at h hl
    by_cases h1 : z * z % secpP ≠ a
    · rw [if_pos h1] at h; cases h
    · rw [if_neg h1] at h
      by_cases h2 : (odd != decide (z % 2 = 1)) = true
      · rw [if_pos h2] at h; cases h
      · rw [if_neg h2] at h
        rw [not_not] at h1
        injection h with h
        subst h
        refine ⟨hl, h1, ?_⟩
        · by_cases e : z % 2 = 1 <;> cases odd <;> simp_all
  · rintro ⟨h1, h2, h3⟩
    have hy : (if (odd != decide (y0 % 2 = 1)) = true then (secpP - y0) % secpP else y0) = y := by
      rcases key h1 (h2.trans ha.symm) with e | e
      · subst e
        rw [if_neg]
        by_cases e : y0 % 2 = 1 <;> cases odd <;> simp_all
      · by_cases z : y = 0
        · exfalso; omega
        · rw [if_pos, e]
          · rw [Nat.mod_eq_of_lt (by omega)]; omega
          · have : y0 % 2 = 1 ↔ ¬ y % 2 = 1 := by omega
            by_cases e : y % 2 = 1 <;> cases odd <;> simp_all
    rw [hy, if_neg (by rw [h2]; simp), if_neg]
    by_cases e : y % 2 = 1 <;> cases odd <;> simp_all

/-! ### C49 -/

/-- On secp256k1 with reduced coordinates: y² = x³ + 7 modulo P, both below P. -/
def spec.OnSecp (p : ECPoint) : Prop :=
  0 ≤ p.x ∧ p.x < secpP ∧ 0 ≤ p.y ∧ p.y < secpP ∧ (p.y ^ 2 - (p.x ^ 3 + 7)) % secpP = 0

/-- Field widths of BIP32. -/
structure spec.Bip32Key (k : Key) : Prop where
  version : k.version.length = 4
  depth : k.depth < 256
  parentFP : k.parentFP.length = 4
  childIndex : k.childIndex < 2 ^ 32
  chainCode : k.chainCode.length = 32
  pub : ∃ p, k.pub = some p ∧ spec.OnSecp p

/-- What the encoding and the hash are assumed to do: decoding inverts encoding and the digest has at least four octets. -/
structure spec.Codec (S : StrEnv) : Prop where
  dec_enc : ∀ b, S.dec58 (S.enc58 b) = b
  len : ∀ b, 4 ≤ (S.dsha b).length

theorem paddedBytes_int {x : Int} (h0 : 0 ≤ x) (h : x < 2 ^ 256) :
    (paddedBytes 32 (intBytes x)).length = 32 ∧ (beNat (paddedBytes 32 (intBytes x)) : Int) = x := by
  have hl : (intBytes x).length ≤ 32 := by
    unfold intBytes; exact natBE_length_le _ _ (by norm_num; omega)
  unfold paddedBytes
  split
  · rw [List.length_append, List.length_replicate, beNat_zeros_append, beNat_intBytes]; omega
  · rw [beNat_intBytes]; omega

theorem uint8_all (P : UInt8 → Prop) (h : ∀ n : Fin 256, P (UInt8.ofNat n)) (f : UInt8) : P f := by
  have := h ⟨f.toNat, f.toNat_lt⟩
  simpa using this

theorem parsePubKey_iff (b : Bytes) (p : ECPoint) :
    parsePubKey b = some p ↔ ∃ f rest, b = f :: rest ∧ rest.length = 32 ∧ (f = 2 ∨ f = 3) ∧ p.x = beNat rest ∧ 0 ≤ p.y ∧
      p.y < secpP ∧ p.y.toNat * p.y.toNat % secpP = (beNat rest ^ 3 + 7) % secpP ∧ (f = 3 ↔ p.y % 2 = 1) := by
  have hf : ∀ f : UInt8, f &&& 0xfe = 2 ↔ f = 2 ∨ f = 3 := fun f => by
    have := uint8_all (fun f => f &&& 0xfe = 2 ↔ f = 2 ∨ f = 3) (by decide +kernel) f
    exact this
  have hb : ∀ f : UInt8, (f = 2 ∨ f = 3) → (f &&& 1 = 1 ↔ f = 3) := fun f => by
    have := uint8_all (fun f => (f = 2 ∨ f = 3) → (f &&& 1 = 1 ↔ f = 3)) (by decide +kernel) f
    exact this
  constructor
  · intro h
    match b, h with
    | f :: rest, h =>
      unfold parsePubKey at h
      simp only at h
      split at h
      · cases h
      · rename_i hl
        split at h
        · cases h
        · rename_i h2
          rw [not_not, hf] at h2
          rw [Option.map_eq_some_iff] at h
          obtain ⟨y, hy, rfl⟩ := h
          obtain ⟨y1, y2, y3⟩ := (decompressPoint_iff _ _ _).mp hy
          refine ⟨f, rest, rfl, by simpa using hl, h2, rfl, by simp, by simpa using y1, by simpa using y2, ?_⟩
          rw [decide_eq_true_iff, hb f h2] at y3
          rw [y3]; simp only; omega
  · rintro ⟨f, rest, rfl, hl, h2, hx, hy0, hy1, hy2, hy3⟩
    unfold parsePubKey
    simp only
    rw [if_neg (by simp [hl]), if_neg (by rw [not_not, hf]; exact h2)]
    have : decompressPoint (beNat rest) (decide (f &&& 1 = 1)) = some p.y.toNat := by
      rw [decompressPoint_iff]
      refine ⟨by omega, hy2, ?_⟩
      rw [decide_eq_true_iff, hb f h2, hy3]; omega
    rw [this]
    simp only [Option.map_some, Option.some.injEq]
    obtain ⟨px, py⟩ := p
    simp only at *
    rw [hx, Int.toNat_of_nonneg hy0]

theorem parse_compressed {p : ECPoint} (h : spec.OnSecp p) : parsePubKey (serializeCompressed p.x p.y) = some p := by
  obtain ⟨x0, x1, y0, y1, e⟩ := h
  have hP : (secpP : Int) < 2 ^ 256 := by norm_num [secpP]
  obtain ⟨l, b⟩ := paddedBytes_int x0 (by omega)
  rw [parsePubKey_iff]
  refine ⟨_, _, rfl, l, ?_, b.symm, y0, y1, ?_, ?_⟩
  · split <;> simp
  · have : (((p.y.toNat * p.y.toNat : ℕ) : Int)) % secpP = ((beNat (paddedBytes 32 (intBytes p.x)) ^ 3 + 7 : ℕ) : Int) % secpP := by
      push_cast
      rw [b, Int.toNat_of_nonneg y0, ← pow_two]
      exact Int.emod_eq_emod_iff_emod_sub_eq_zero.mpr e
    exact_mod_cast this
  · split <;> simp_all

theorem compressed_length {p : ECPoint} (h : spec.OnSecp p) : (serializeCompressed p.x p.y).length = 33 := by
  have hP : (secpP : Int) < 2 ^ 256 := by norm_num [secpP]
  have := (paddedBytes_int h.1 (by have := h.2.1; omega)).1
  simp [serializeCompressed, this]

/-- The octets before the checksum. -/
def payload (k : Key) (p : ECPoint) : Bytes :=
  k.version ++ [UInt8.ofNat k.depth] ++ k.parentFP ++ beFixed 4 k.childIndex ++ k.chainCode ++ serializeCompressed p.x p.y

theorem serialize_some (S : StrEnv) {k : Key} {p : ECPoint} (h : k.pub = some p) :
    k.serialize S = .ok (S.enc58 (payload k p ++ (S.dsha (payload k p)).take 4)) := by
  unfold Key.serialize; rw [h]; rfl

/-- The parsed fields of 78 payload octets. -/
def fields (b : Bytes) (pub : Option ECPoint) : Key :=
  { pub := pub, deduce := none, depth := beNat ((b.drop 4).take 1), childIndex := beNat ((b.drop 9).take 4), priv := [],
    chainCode := (b.drop 13).take 32, parentFP := (b.drop 5).take 4, version := b.take 4 }

theorem parse_payload {S : StrEnv} (hS : spec.Codec S) {b : Bytes} (hb : b.length = 78) (c : CurveArg) :
    newExtendedKeyFromString S (S.enc58 (b ++ (S.dsha b).take 4)) c =
      match c with
      | .koblitz => match parsePubKey (b.drop 45) with | none => .err .badPubKey | some p => .ok (fields b (some p))
      | .other => .ok (fields b none) := by
  have h4 := hS.len b
  have e1 : (b ++ (S.dsha b).take 4).take 78 = b := by rw [← hb, List.take_left]
  have e2 : (b ++ (S.dsha b).take 4).drop 78 = (S.dsha b).take 4 := by rw [← hb, List.drop_left]
  unfold newExtendedKeyFromString
  simp only
  rw [hS.dec_enc, e1, e2, if_neg (by rw [List.length_append, hb, List.length_take]; omega), if_neg (by simp)]
  rfl

theorem beNat_single (n : Nat) (h : n < 256) : beNat [UInt8.ofNat n] = n := by
  have := beNat_append_single [] (UInt8.ofNat n)
  simp only [List.nil_append] at this
  rw [this]
  have z : beNat [] = 0 := rfl
  rw [z]; simp; omega

/-- Splitting six fields of known widths. -/
theorem split_fields {v fp ci cc kd : Bytes} {d : UInt8} (h1 : v.length = 4) (h2 : fp.length = 4) (h3 : ci.length = 4)
    (h4 : cc.length = 32) (b : Bytes) (hb : b = v ++ [d] ++ fp ++ ci ++ cc ++ kd) :
    b.take 4 = v ∧ (b.drop 4).take 1 = [d] ∧ (b.drop 5).take 4 = fp ∧ (b.drop 9).take 4 = ci ∧ (b.drop 13).take 32 = cc ∧
      b.drop 45 = kd := by
  match v, h1 with
  | [_, _, _, _], _ =>
    match fp, h2 with
    | [_, _, _, _], _ =>
      match ci, h3 with
      | [_, _, _, _], _ =>
        subst hb
        simp only [List.cons_append, List.nil_append, List.take_succ_cons, List.take_zero, List.drop_succ_cons, List.drop_zero,
          true_and]
        refine ⟨by rw [← h4, List.take_left], by rw [← h4, List.drop_left]⟩

/-- C49, round trip: a key with fields of the widths BIP32 prescribes and a public key on secp256k1 serialises, and the string
parses back into the same version, depth, fingerprint, child number, chain code and public key (the private key and the derivation
point are not part of the string). -/
theorem C49_round_trip {S : StrEnv} (hS : spec.Codec S) {k : Key} (hk : spec.Bip32Key k) :
    ∃ s, k.serialize S = .ok s ∧ newExtendedKeyFromString S s .koblitz = .ok { k with deduce := none, priv := [] } := by
  obtain ⟨h1, h2, h3, h4, h5, p, hp, on⟩ := hk
  refine ⟨_, serialize_some S hp, ?_⟩
  obtain ⟨e1, e2, e3, e4, e5, e6⟩ := split_fields h1 h3 (beFixed_length 4 k.childIndex) h5 _ (rfl : payload k p = _)
  rw [parse_payload hS (by simp [payload, h1, h3, h5, compressed_length on])]
  simp only
  rw [e6, parse_compressed on]
  simp only [fields]
  rw [e1, e2, e3, e4, e5, beNat_single _ h2, beNat_beFixed, Nat.mod_eq_of_lt (by norm_num at h4 ⊢; omega), ← hp]

/-- C49: two such keys with the same string are the same key but for the parts the string leaves out. -/
theorem C49_string_binds {S : StrEnv} (hS : spec.Codec S) {k k' : Key} (hk : spec.Bip32Key k) (hk' : spec.Bip32Key k')
    (h : k.serialize S = k'.serialize S) :
    k.pub = k'.pub ∧ k.version = k'.version ∧ k.depth = k'.depth ∧ k.parentFP = k'.parentFP ∧ k.childIndex = k'.childIndex ∧
      k.chainCode = k'.chainCode := by
  obtain ⟨s, a1, a2⟩ := C49_round_trip hS hk
  obtain ⟨s', b1, b2⟩ := C49_round_trip hS hk'
  rw [a1, b1] at h
  injection h with h
  rw [h, b2] at a2
  injection a2 with a2
  injection a2 with x1 x2 x3 x4 x5 x6 x7 x8
  exact ⟨x1.symm, x8.symm, x3.symm, x7.symm, x4.symm, x6.symm⟩

/-- C49, rejection: what parses decodes to 82 octets ending in the checksum of the first 78; anything else is an error, whatever the
curve. -/
theorem C49_rejects (S : StrEnv) (s : Bytes) (c : CurveArg)
    (h : (S.dec58 s).length ≠ 82 ∨ (S.dec58 s).drop 78 ≠ (S.dsha ((S.dec58 s).take 78)).take 4) :
    newExtendedKeyFromString S s c = .err .invalidExtendedKey := by
  unfold newExtendedKeyFromString
  simp only
  by_cases h1 : (S.dec58 s).length ≠ 82
  · rw [if_pos h1]
  · rw [if_neg h1, if_pos (h.resolve_left h1)]

/-- The function never crashes. -/
theorem C49_parse_no_panic (S : StrEnv) (s : Bytes) (c : CurveArg) : newExtendedKeyFromString S s c ≠ .panic := by
  unfold newExtendedKeyFromString
  simp only
  split
  · simp
  · split
    · simp
    · cases c with
      | other => simp
      | koblitz => simp only; split <;> simp

theorem parse_ok {S : StrEnv} {s : Bytes} {c : CurveArg} {k : Key} (h : newExtendedKeyFromString S s c = .ok k) :
    (S.dec58 s).length = 82 ∧ (S.dec58 s).drop 78 = (S.dsha ((S.dec58 s).take 78)).take 4 ∧
    ∃ o, k = fields ((S.dec58 s).take 78) o ∧
      (c = .koblitz → ∃ p, o = some p ∧ parsePubKey (((S.dec58 s).take 78).drop 45) = some p) ∧ (c = .other → o = none) := by
  unfold newExtendedKeyFromString at h
  simp only at h
  by_cases h1 : (S.dec58 s).length ≠ 82
  · rw [if_pos h1] at h; cases h
  · rw [if_neg h1] at h
    by_cases h2 : (S.dec58 s).drop 78 ≠ (S.dsha ((S.dec58 s).take 78)).take 4
    · rw [if_pos h2] at h; cases h
    · rw [if_neg h2] at h
      refine ⟨not_not.mp h1, not_not.mp h2, ?_⟩
      cases c with
      | other =>
        simp only [Res.ok.injEq] at h
        exact ⟨none, h.symm, by simp, by simp⟩
      | koblitz =>
        simp only at h
        split at h
        · cases h
        · rename_i p hp
          simp only [Res.ok.injEq] at h
          exact ⟨some p, h.symm, fun _ => ⟨p, rfl, hp⟩, by simp⟩

theorem padded_beNat {b : Bytes} (h : b.length = 32) : paddedBytes 32 (intBytes (beNat b : Int)) = b := by
  have hlt := beNat_lt b
  rw [h] at hlt
  obtain ⟨l, e⟩ := paddedBytes_int (x := (beNat b : Int)) (by omega) (by norm_num at hlt ⊢; exact_mod_cast hlt)
  exact beNat_inj _ _ (by rw [l, h]) (by exact_mod_cast e)

theorem compress_parsed {b : Bytes} {p : ECPoint} (h : parsePubKey b = some p) : serializeCompressed p.x p.y = b := by
  obtain ⟨f, rest, rfl, hl, hf, hx, y0, y1, y2, y3⟩ := (parsePubKey_iff _ _).mp h
  unfold serializeCompressed
  rw [hx, padded_beNat hl]
  rcases hf with rfl | rfl
  · rw [if_neg]; rw [← y3]; decide
  · rw [if_pos (y3.mp rfl)]

/-- C49: the point a Koblitz string parses to satisfies the curve equation, its y is reduced, and its x is the 32 octets as they are
(not compared with the field modulus). -/
theorem C49_parsed_point {S : StrEnv} {s : Bytes} {k : Key} (h : newExtendedKeyFromString S s .koblitz = .ok k) :
    ∃ p, k.pub = some p ∧ 0 ≤ p.x ∧ p.x < 2 ^ 256 ∧ 0 ≤ p.y ∧ p.y < secpP ∧ (p.y ^ 2 - (p.x ^ 3 + 7)) % secpP = 0 := by
  obtain ⟨_, _, o, rfl, ho, _⟩ := parse_ok h
  obtain ⟨p, rfl, hp⟩ := ho rfl
  obtain ⟨f, rest, hb, hl, hf, hx, y0, y1, y2, y3⟩ := (parsePubKey_iff _ _).mp hp
  have hlt := beNat_lt rest
  rw [hl] at hlt
  refine ⟨p, rfl, by omega, ?_, y0, y1, ?_⟩
  · rw [hx]; norm_num at hlt ⊢; exact_mod_cast hlt
  · have : ((p.y.toNat * p.y.toNat % secpP : ℕ) : Int) = ((beNat rest ^ 3 + 7) % secpP : ℕ) := by rw [y2]
    push_cast at this
    rw [Int.toNat_of_nonneg y0, ← hx, ← pow_two] at this
    exact Int.emod_eq_emod_iff_emod_sub_eq_zero.mp this

/-- C49: whatever parses serialises again, to a string with the same octets. -/
theorem C49_reserialises {S : StrEnv} (hS : spec.Codec S) {s : Bytes} {k : Key}
    (h : newExtendedKeyFromString S s .koblitz = .ok k) : k.serialize S = .ok (S.enc58 (S.dec58 s)) := by
  obtain ⟨hl, hc, o, rfl, ho, _⟩ := parse_ok h
  obtain ⟨p, rfl, hp⟩ := ho rfl
  rw [serialize_some S (p := p) rfl]
  have e : payload (fields ((S.dec58 s).take 78) (some p)) p = (S.dec58 s).take 78 := by
    unfold payload
    simp only [fields]
    rw [compress_parsed hp]
    have hb : ((S.dec58 s).take 78).length = 78 := by rw [List.length_take]; omega
    generalize (S.dec58 s).take 78 = b at hb
    have d1 : [UInt8.ofNat (beNat ((b.drop 4).take 1))] = (b.drop 4).take 1 := by
      have l : ((b.drop 4).take 1).length = 1 := by simp; omega
      match (b.drop 4).take 1, l with
      | [x], _ =>
        have := beNat_append_single [] x
        simp only [List.nil_append] at this
        rw [this]
        have z : beNat [] = 0 := rfl
        rw [z]; simp
    have d2 : beFixed 4 (beNat ((b.drop 9).take 4)) = (b.drop 9).take 4 := by
      have := beFixed_beNat ((b.drop 9).take 4)
      rwa [show ((b.drop 9).take 4).length = 4 by simp; omega] at this
    rw [d1, d2]
    have t : ∀ i j, b.take i ++ (b.drop i).take j = b.take (i + j) := fun i j => (List.take_add).symm
    rw [t 4 1, t 5 4, t 9 4, t 13 32, List.take_append_drop]
  rw [e, ← hc, List.take_append_drop]

/-- C49: a key parsed from a string derives no child at all: the derivation point is not in the string. -/
theorem C49_parsed_derives_nothing {S : StrEnv} {s : Bytes} {c : CurveArg} {k : Key}
    (h : newExtendedKeyFromString S s c = .ok k) (E : Env) (sN : Int) (i : Nat) (hard : Bool) :
    (∃ e, deriveChildKey E sN i hard k = .err e) ∧ (∃ e, deriveChildPubKey E i k = .err e) := by
  obtain ⟨_, _, o, rfl, _⟩ := parse_ok h
  constructor
  · unfold deriveChildKey
    split
    · exact ⟨_, rfl⟩
    · split
      · exact ⟨_, rfl⟩
      · simp only [fields]
        split
        · exact ⟨_, rfl⟩
        · exact ⟨_, rfl⟩
  · unfold deriveChildPubKey
    split
    · exact ⟨_, rfl⟩
    · split
      · exact ⟨_, rfl⟩
      · simp only [fields]
        split
        · exact ⟨_, rfl⟩
        · exact ⟨_, rfl⟩

/-- C49: with any curve that is not the Koblitz curve a string of the right length and checksum always parses, whatever its key
octets, into a key without coordinates; serialising that key crashes. -/
theorem C49_other_curve {S : StrEnv} {s : Bytes} (h1 : (S.dec58 s).length = 82)
    (h2 : (S.dec58 s).drop 78 = (S.dsha ((S.dec58 s).take 78)).take 4) :
    ∃ k, newExtendedKeyFromString S s .other = .ok k ∧ k.pub = none ∧ k.serialize S = .panic := by
  refine ⟨fields ((S.dec58 s).take 78) none, ?_, rfl, rfl⟩
  unfold newExtendedKeyFromString
  simp only
  rw [if_neg (by simp [h1]), if_neg (by simp [h2])]
  rfl

/-- Keys the library makes: `NewExtendKey` on 32-octet chain codes and points of the curve, and children derived from them. -/
inductive spec.Made (E : Env) (sN : Int) : Key → Prop
  | new {priv pub deduce index depth code} : code.length = 32 → 0 ≤ pub.x → pub.x < 2 ^ 256 → spec.Made E sN (newExtendKey E priv pub deduce index depth code)
  | priv {k i hard il k' p} : spec.Made E sN k → deriveChildKey E sN i hard k = .ok (il, k') → k'.pub = some p → 0 ≤ p.x →
      p.x < 2 ^ 256 → spec.Made E sN k'
  | pub {k i il k' p} : spec.Made E sN k → deriveChildPubKey E i k = .ok (il, k') → k'.pub = some p → 0 ≤ p.x →
      p.x < 2 ^ 256 → spec.Made E sN k'

theorem deriveChildKey_shape {E : Env} {sN : Int} {i : Nat} {hard : Bool} {k k' : Key} {il : Int}
    (h : deriveChildKey E sN i hard k = .ok (il, k')) :
    k'.version = k.version ∧ (∃ a b, k'.chainCode = (E.hmac512 a b).drop 32) ∧ (∃ a, k'.parentFP = (E.hash160 a).take 4) := by
  unfold deriveChildKey at h
  simp only at h
  repeat' (split at h)
  all_goals first
    | cases h; done
    | (simp only [Res.ok.injEq, Prod.mk.injEq] at h; obtain ⟨_, rfl⟩ := h; exact ⟨rfl, ⟨_, _, rfl⟩, ⟨_, rfl⟩⟩)

theorem deriveChildPubKey_shape {E : Env} {i : Nat} {k k' : Key} {il : Int} (h : deriveChildPubKey E i k = .ok (il, k')) :
    k'.version = k.version ∧ (∃ a b, k'.chainCode = (E.hmac512 a b).drop 32) ∧ (∃ a, k'.parentFP = (E.hash160 a).take 4) := by
  unfold deriveChildPubKey at h
  simp only at h
  repeat' (split at h)
  all_goals first
    | cases h; done
    | (simp only [Res.ok.injEq, Prod.mk.injEq] at h; obtain ⟨_, rfl⟩ := h; exact ⟨rfl, ⟨_, _, rfl⟩, ⟨_, rfl⟩⟩)

/-- C49: no key the library makes survives the round trip: it writes a one-octet version, the string is three octets short and
parsing it is an error, for every curve. -/
theorem C49_made_keys_do_not_parse {S : StrEnv} (hS : spec.Codec S) {E : Env} {sN : Int} (h160 : ∀ b, (E.hash160 b).length = 20)
    (hmac : ∀ a b, (E.hmac512 a b).length = 64) {k : Key} (hk : spec.Made E sN k) (c : CurveArg) :
    ∃ s, k.serialize S = .ok s ∧ newExtendedKeyFromString S s c = .err .invalidExtendedKey := by
  have key : k.version = [0] ∧ k.parentFP.length = 4 ∧ k.chainCode.length = 32 ∧ ∃ p, k.pub = some p ∧ 0 ≤ p.x ∧ p.x < 2 ^ 256 := by
    induction hk with
    | new h hx hx' => exact ⟨rfl, by simp [newExtendKey, h160], h, _, rfl, hx, hx'⟩
    | priv _ h hp hx hx' ih =>
      obtain ⟨v, ⟨a, b, c⟩, ⟨d, e⟩⟩ := deriveChildKey_shape h
      exact ⟨v.trans ih.1, by simp [e, h160], by simp [c, hmac], _, hp, hx, hx'⟩
    | pub _ h hp hx hx' ih =>
      obtain ⟨v, ⟨a, b, c⟩, ⟨d, e⟩⟩ := deriveChildPubKey_shape h
      exact ⟨v.trans ih.1, by simp [e, h160], by simp [c, hmac], _, hp, hx, hx'⟩
  obtain ⟨k1, k2, k3, p, hp, x0, x1⟩ := key
  refine ⟨_, serialize_some S hp, C49_rejects S _ c (Or.inl ?_)⟩
  have := (paddedBytes_int x0 x1).1
  have h4 := hS.len (payload k p)
  rw [hS.dec_enc]
  simp only [payload, List.length_append, List.length_take, beFixed_length, k1, k2, k3, serializeCompressed, List.length_cons, this,
    List.length_nil] at h4 ⊢
  omega

/-- C49: the length check does not tell where the missing octets are: a key with the library's one-octet version and a chain code of
35 octets parses back, into a key with another version and another chain code but the same public key. -/
theorem C49_misparse {S : StrEnv} (hS : spec.Codec S) {k : Key} {p : ECPoint} (hv : k.version = [0]) (hf : k.parentFP.length = 4)
    (hc : k.chainCode.length = 35) (hp : k.pub = some p) (on : spec.OnSecp p) :
    ∃ s k', k.serialize S = .ok s ∧ newExtendedKeyFromString S s .koblitz = .ok k' ∧ k'.pub = k.pub ∧ k'.version ≠ k.version ∧
      k'.chainCode = k.chainCode.drop 3 := by
  have hl : (payload k p).length = 78 := by simp [payload, hv, hf, hc, compressed_length on]
  have e : payload k p = ([0] ++ [UInt8.ofNat k.depth] ++ k.parentFP ++ beFixed 4 k.childIndex ++ k.chainCode) ++
      serializeCompressed p.x p.y := by simp [payload, hv]
  have e1 : (payload k p).drop 45 = serializeCompressed p.x p.y := by
    rw [e]; apply List.drop_left'; simp [hf, hc]
  refine ⟨_, fields (payload k p) (some p), serialize_some S hp, ?_, hp.symm, ?_, ?_⟩
  · rw [parse_payload hS hl]; simp only; rw [e1, parse_compressed on]
  · intro h
    have := congrArg List.length h
    simp [fields, hl, hv] at this
  · have e2 : payload k p = ([0] ++ [UInt8.ofNat k.depth] ++ k.parentFP ++ beFixed 4 k.childIndex ++ k.chainCode.take 3) ++
        (k.chainCode.drop 3 ++ serializeCompressed p.x p.y) := by
      rw [e]; simp only [List.append_assoc]
      rw [← List.append_assoc (k.chainCode.take 3), List.take_append_drop]
    simp only [fields]
    rw [e2, List.drop_left' (by simp [hf, hc]), List.take_left' (by simp [hc])]

end Tss.Ckd
