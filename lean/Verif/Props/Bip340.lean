import Verif.Lemmas.Bip340
import Verif.Lemmas.PowMod
/-
C94: verification of BIP 340 signatures. C95: producing them.
-/
namespace Tss.Bip340
open Tss
open Tss.Secp (E p ord G pt point_cases y_ne_zero p_prime pt_ne_zero G_ne_zero)

namespace spec

/-- BIP 340 lift_x: the 32 bytes are the x-coordinate, below the field prime, of the curve point P, whose y is even. -/
def Lift (b : Bytes) (P : Pt) : Prop := b.length = 32 ∧ ∃ x y h, P = pt x y h ∧ y.val % 2 = 0 ∧ beNat b = x.val

/-- The number BIP 340 calls e, before the reduction: H(r ‖ pk ‖ m). -/
def chal (th : TH) (sig pk m : Bytes) : Nat := beNat (th "BIP0340/challenge" (sig.take 32 ++ pk ++ m))

/-- A valid signature in BIP 340: 64 bytes, r the x-coordinate of a point R with even y, s below the group order,
s·G = R + (e mod n)·P. -/
def Valid (th : TH) (pk m sig : Bytes) : Prop := sig.length = 64 ∧ ∃ P R, Lift pk P ∧ Lift (sig.take 32) R ∧
  beNat (sig.drop 32) < ord ∧ beNat (sig.drop 32) • G = R + (chal th sig pk m % ord) • P

open Classical in
/-- The one of k and n - k whose multiple of the base point has even y. -/
noncomputable def pick (k : Nat) : Nat := if ∃ x y h, k • G = pt x y h ∧ y.val % 2 = 0 then k else ord - k

/-- The default signing of BIP 340 with secret key d' and auxiliary data a, step by step: d, t = bytes(d) xor H_aux(a),
k' = H_nonce(t ‖ bytes(P) ‖ m) mod n, fail if it is 0, k, e = H_challenge(bytes(R) ‖ bytes(P) ‖ m) mod n, and the signature
bytes(R) ‖ bytes((k + ed) mod n). -/
noncomputable def sign (th : TH) (d' : Nat) (m a : Bytes) : Option Bytes :=
  let d := pick d'
  let pk := serializePubKey (d' • G)
  let t := List.zipWith (· ^^^ ·) (beFixed 32 d) (th "BIP0340/aux" a)
  let k' := beNat (th "BIP0340/nonce" (t ++ pk ++ m)) % ord
  if k' = 0 then none
  else
    let k := pick k'
    let r := serializePubKey (k' • G)
    let e := beNat (th "BIP0340/challenge" (r ++ pk ++ m)) % ord
    some (r ++ beFixed 32 ((k + e * d) % ord))

end spec

theorem lift_iff (b : Bytes) (P : Pt) : spec.Lift b P ↔ P ≠ 0 ∧ oddY P = false ∧ b = xb P := by
  constructor
  · rintro ⟨hl, x, y, h, rfl, hy, hb⟩
    refine ⟨pt_ne_zero _, ?_, ?_⟩
    · unfold oddY; rw [yOf_pt, hy]; rfl
    · unfold xb; rw [xOf_pt, ← hb, putBytes_beNat hl]
  · rintro ⟨h0, ho, rfl⟩
    refine ⟨xb_length P, ?_⟩
    rcases point_cases P with rfl | ⟨x, y, h, rfl⟩
    · exact absurd rfl h0
    · refine ⟨x, y, h, rfl, ?_, beNat_putBytes (val_lt_p _)⟩
      unfold oddY at ho
      rw [yOf_pt] at ho
      simp at ho
      exact ho

theorem lift_unique {b : Bytes} {P Q : Pt} (h1 : spec.Lift b P) (h2 : spec.Lift b Q) : P = Q := by
  rw [lift_iff] at h1 h2
  exact ext_of h1.1 h2.1 (xb_inj (h1.2.2.symm.trans h2.2.2)) (by rw [h1.2.1, h2.2.1])

/-- **C94.** Parsing and serialising signatures are exactly inverse: a byte string is accepted iff it is the serialisation of the
signature returned, so every signature has one encoding. -/
theorem C94_signature_encoding (b : Bytes) (g : Sig) : parseSignature b = .ok g ↔ b = g.serialize := by
  unfold parseSignature Sig.serialize
  constructor
  · intro h
    split at h
    · cases h
    rename_i h1
    split at h
    · cases h
    rename_i h2
    split at h
    · cases h
    rename_i h3
    split at h
    · cases h
    rename_i h4
    injection h with h
    subst h
    simp only
    rw [setBytes_val (by simpa using h4), ZMod.val_natCast, Nat.mod_eq_of_lt (not_le.1 h3), putBytes_beNat (by simp; omega),
      putBytes_beNat (by simp; omega), List.take_append_drop]
  · rintro rfl
    have ht : (putBytes g.r.val ++ putBytes g.s.val).take 32 = putBytes g.r.val := by
      rw [List.take_append_of_le_length (by rw [putBytes_length]), List.take_of_length_le (by rw [putBytes_length])]
    have hd : (putBytes g.r.val ++ putBytes g.s.val).drop 32 = putBytes g.s.val :=
      List.drop_left' (putBytes_length _)
    have hl : (putBytes g.r.val ++ putBytes g.s.val).length = 64 := by simp [putBytes_length]
    rw [if_neg (by omega), if_neg (by omega), ht, hd, beNat_putBytes (val_lt_p _),
      if_neg (not_le.2 (ZMod.val_lt _))]
    unfold setBytes
    simp only
    rw [beNat_putBytes (val_lt_ord _), if_neg (by simpa using ZMod.val_lt g.s), ZMod.natCast_zmod_val, ZMod.natCast_zmod_val]

/-- **C94.** Which error: too short, too long, r not below the field prime, s not below the group order. -/
theorem C94_signature_errors (b : Bytes) (e : SErr) (h : parseSignature b = .error e) :
    (e = .tooShort ∧ b.length < 64) ∨ (e = .tooLong ∧ 64 < b.length) ∨ (b.length = 64 ∧
      ((e = .rTooBig ∧ p ≤ beNat (b.take 32)) ∨ (e = .sTooBig ∧ beNat (b.take 32) < p ∧ ord ≤ beNat (b.drop 32)))) := by
  unfold parseSignature setBytes at h
  split at h
  · injection h with h; subst h; left; exact ⟨rfl, by assumption⟩
  split at h
  · injection h with h; subst h; right; left; exact ⟨rfl, by assumption⟩
  rename_i h1 h2
  right; right
  refine ⟨by omega, ?_⟩
  split at h
  · injection h with h; subst h; left; exact ⟨rfl, by assumption⟩
  rename_i h3
  split at h
  · injection h with h; subst h; right; exact ⟨rfl, not_le.1 h3, by rename_i h4; simpa using h4⟩
  · cases h

/-- schnorrVerify as an equation between points. -/
theorem schnorrVerify_iff (th : TH) (g : Sig) (m pk : Bytes) : schnorrVerify th g m pk = .ok () ↔
    m.length = 32 ∧ ∃ P R, spec.Lift pk P ∧ R ≠ 0 ∧ oddY R = false ∧ xOf R = g.r ∧ (challenge th g.r pk m).2 = false ∧
      g.s • G = R + (challenge th g.r pk m).1 • P := by
  unfold schnorrVerify
  constructor
  · intro h
    split at h
    · cases h
    rename_i hm
    push Not at hm
    refine ⟨hm, ?_⟩
    split at h
    · cases h
    rename_i P hP
    rw [parseXOnly_iff] at hP
    obtain ⟨h0, ho, rfl⟩ := hP
    rw [serialize_eq] at h
    simp only at h
    split at h
    · cases h
    rename_i hc
    rw [mulG_eq, mul_eq] at h
    split at h
    · cases h
    rename_i hR
    split at h
    · cases h
    rename_i hodd
    split at h
    · cases h
    rename_i hx
    push Not at hx
    refine ⟨P, _, (lift_iff _ _).2 ⟨h0, ho, rfl⟩, hR, by simpa using hodd, hx.symm, by simpa using hc, ?_⟩
    rw [neg_smul, neg_add_cancel_right]
  · rintro ⟨hm, P, R, hL, hR, ho, hx, hc, he⟩
    rw [lift_iff] at hL
    obtain ⟨hP, hPo, rfl⟩ := hL
    have hp := (parseXOnly_iff (xb P) P).2 ⟨hP, hPo, rfl⟩
    rw [if_neg (by simpa using hm), hp]
    simp only
    rw [serialize_eq, mulG_eq, mul_eq, neg_smul]
    have hRe : g.s • G + -((challenge th g.r (xb P) m).1 • P) = R := by rw [he, add_neg_cancel_right]
    rw [hRe, if_neg (by rw [hc]; simp), if_neg hR, if_neg (by rw [ho]; simp), if_neg (by rw [hx]; simp)]

theorem verify_true (th : TH) (g : Sig) (m : Bytes) (pub : Pt) :
    verify th g m pub = true ↔ schnorrVerify th g m (xb pub) = .ok () := by
  unfold verify
  rw [serialize_eq, decide_eq_true_iff]

theorem take_serialize (g : Sig) : g.serialize.take 32 = putBytes g.r.val := by
  unfold Sig.serialize
  rw [List.take_append_of_le_length (by rw [putBytes_length]), List.take_of_length_le (by rw [putBytes_length])]

theorem drop_serialize (g : Sig) : g.serialize.drop 32 = putBytes g.s.val := List.drop_left' (putBytes_length _)

theorem chal_serialize (th : TH) (g : Sig) (pk m : Bytes) : challenge th g.r pk m =
    ((spec.chal th g.serialize pk m : Sc), decide (ord ≤ spec.chal th g.serialize pk m)) := by
  unfold challenge setBytes spec.chal
  rw [take_serialize]

/-- **C94.** `Verify` accepts a parsed signature exactly when it is valid in BIP 340 for the x-only form of the key, the message has
32 bytes, and the challenge hash, before its reduction, is below the group order. -/
theorem C94_verify_iff (th : TH) (b m : Bytes) (pub : Pt) :
    (∃ g, parseSignature b = .ok g ∧ verify th g m pub = true) ↔
      m.length = 32 ∧ spec.Valid th (serializePubKey pub) m b ∧ spec.chal th b (serializePubKey pub) m < ord := by
  rw [serialize_eq]
  constructor
  · rintro ⟨g, hg, hv⟩
    rw [C94_signature_encoding] at hg
    subst hg
    rw [verify_true, schnorrVerify_iff] at hv
    obtain ⟨hm, P, R, hL, hR, ho, hx, hc, he⟩ := hv
    rw [chal_serialize] at hc he
    simp only [decide_eq_false_iff_not, not_le] at hc
    simp only at he
    refine ⟨hm, ⟨?_, P, R, hL, ?_, ?_, ?_⟩, hc⟩
    · unfold Sig.serialize; simp [putBytes_length]
    · rw [take_serialize, lift_iff]; refine ⟨hR, ho, ?_⟩; unfold xb; rw [hx]
    · rw [drop_serialize, beNat_putBytes (val_lt_ord _)]; exact ZMod.val_lt _
    · rw [drop_serialize, beNat_putBytes (val_lt_ord _), Nat.mod_eq_of_lt hc, ← nat_smul, ← nat_smul, ZMod.natCast_zmod_val]
      exact he
  · rintro ⟨hm, ⟨hl, P, R, hL, hR, hs, he⟩, hc⟩
    have h64 : (b.take 32).length = 32 := by simp; omega
    have h64' : (b.drop 32).length = 32 := by simp; omega
    obtain ⟨_, x, y, hxy, rfl, hy, hbx⟩ := hR
    refine ⟨⟨x, (beNat (b.drop 32) : Sc)⟩, ?_⟩
    have hg : b = (⟨x, (beNat (b.drop 32) : Sc)⟩ : Sig).serialize := by
      unfold Sig.serialize
      simp only
      rw [← hbx, putBytes_beNat h64, ZMod.val_natCast, Nat.mod_eq_of_lt hs, putBytes_beNat h64', List.take_append_drop]
    refine ⟨(C94_signature_encoding _ _).2 hg, ?_⟩
    rw [verify_true, schnorrVerify_iff]
    refine ⟨hm, P, pt x y hxy, hL, pt_ne_zero _, ?_, rfl, ?_, ?_⟩
    · unfold oddY; rw [yOf_pt, hy]; rfl
    · rw [chal_serialize, ← hg]; simpa using hc
    · rw [chal_serialize, ← hg]
      simp only
      rw [nat_smul, nat_smul]
      rw [Nat.mod_eq_of_lt hc] at he
      exact he

/-- **C94.** Where the code departs from BIP 340: when the challenge hash of a nonce point, a key and a message is not below the group
order, BIP 340 reduces it and there is a valid signature with that nonce point, but `Verify` rejects it. -/
theorem C94_rejects_valid (th : TH) (m : Bytes) (pub R : Pt) (hp : pub ≠ 0) (hR : R ≠ 0)
    (hc : ord ≤ beNat (th "BIP0340/challenge" (serializePubKey R ++ serializePubKey pub ++ m))) :
    ∃ b, b.take 32 = serializePubKey R ∧ spec.Valid th (serializePubKey pub) m b ∧
      ¬∃ g, parseSignature b = .ok g ∧ verify th g m pub = true := by
  rw [serialize_eq, serialize_eq] at *
  obtain ⟨s, hs⟩ := exists_smul (even R + (beNat (th "BIP0340/challenge" (xb R ++ xb pub ++ m)) : Sc) • even pub)
  have ht := take_serialize ⟨xOf R, s⟩
  have hd := drop_serialize ⟨xOf R, s⟩
  have hch : spec.chal th (Sig.serialize ⟨xOf R, s⟩) (xb pub) m = beNat (th "BIP0340/challenge" (xb R ++ xb pub ++ m)) := by
    unfold spec.chal; rw [ht]; rfl
  refine ⟨Sig.serialize ⟨xOf R, s⟩, ht, ⟨?_, even pub, even R, (lift_iff _ _).2 ⟨even_ne hp, oddY_even _, (xb_even _).symm⟩,
    (lift_iff _ _).2 ⟨even_ne hR, oddY_even _, by rw [xb_even, ht]; rfl⟩, ?_, ?_⟩, ?_⟩
  · unfold Sig.serialize; simp [putBytes_length]
  · rw [hd, beNat_putBytes (val_lt_ord _)]; exact ZMod.val_lt _
  · rw [hd, beNat_putBytes (val_lt_ord _), hch, ← nat_smul, ← nat_smul, ZMod.natCast_zmod_val, ZMod.natCast_mod]
    exact hs.symm
  · rw [C94_verify_iff, serialize_eq, hch]
    rintro ⟨-, -, h⟩
    exact absurd hc (not_le.2 h)

/-- **C94.** A key and its opposite verify the same signatures. -/
theorem C94_verify_neg (th : TH) (g : Sig) (m : Bytes) (pub : Pt) : verify th g m (-pub) = verify th g m pub := by
  unfold verify
  rw [serialize_eq, serialize_eq]
  unfold xb
  rw [xOf_neg]

theorem seven_not_square (y : ZMod p) : y ^ 2 ≠ (0 : ZMod p) ^ 3 + 7 := by
  intro h
  have hy := y_ne_zero h
  have h1 : y ^ (p - 1) = 1 := ZMod.pow_card_sub_one_eq_one hy
  have e : p - 1 = 2 * ((p - 1) / 2) := by decide +kernel
  rw [e, pow_mul, h] at h1
  have h2 : ((powMod 7 ((p - 1) / 2) p : Nat) : ZMod p) = 1 := by
    rw [powMod_eq, ZMod.natCast_mod]
    push_cast
    rw [← h1, zero_pow (by norm_num), zero_add]
  have h3 : powMod 7 ((p - 1) / 2) p = p - 1 := by decide +kernel
  rw [h3, Nat.cast_sub p_prime.one_le] at h2
  have h4 : (2 : ZMod p) = 0 := by
    have : (p : ZMod p) = 0 := ZMod.natCast_self p
    rw [this] at h2
    push_cast at h2
    linear_combination -h2
  exact Secp.two_ne h4

theorem parseXOnly_zero : ∃ e, parseXOnly (xb 0) = .error e := by
  cases h : parseXOnly (xb 0) with
  | error e => exact ⟨e, rfl⟩
  | ok P =>
    exfalso
    rw [parseXOnly_iff] at h
    obtain ⟨h0, -, hx⟩ := h
    have := xb_inj hx
    rw [xOf_zero] at this
    rcases point_cases P with rfl | ⟨x, y, hxy, rfl⟩
    · exact h0 rfl
    · rw [xOf_pt] at this; subst this; exact seven_not_square y hxy

/-- **C94.** No signature verifies under the key at infinity: no curve point has x = 0. -/
theorem C94_verify_infinity (th : TH) (g : Sig) (m : Bytes) : verify th g m 0 = false := by
  rw [← Bool.not_eq_true, verify_true, schnorrVerify_iff]
  rintro ⟨-, P, R, hL, -⟩
  rw [lift_iff] at hL
  obtain ⟨e, he⟩ := parseXOnly_zero
  have := (parseXOnly_iff _ _).2 hL
  rw [he] at this
  cases this

/-- **C94.** Signatures cannot be altered: two signatures of the same message under the same key with the same r are the same. -/
theorem C94_not_malleable (th : TH) (g g' : Sig) (m : Bytes) (pub : Pt) (h : verify th g m pub = true) (h' : verify th g' m pub = true)
    (hr : g.r = g'.r) : g = g' := by
  rw [verify_true, schnorrVerify_iff] at h h'
  obtain ⟨-, P, R, hL, hR, ho, hx, hc, he⟩ := h
  obtain ⟨-, P', R', hL', hR', ho', hx', hc', he'⟩ := h'
  have hRR : R = R' := ext_of hR hR' (by rw [hx, hx', hr]) (by rw [ho, ho'])
  have hPP := lift_unique hL hL'
  subst hRR; subst hPP
  rw [← hr, ← he] at he'
  have := smulG_inj he'
  cases g; cases g'
  simp only at hr this
  rw [hr, this]

/-! ### C95: signing -/

theorem sgn_scalar (d : Sc) (P : Pt) (h : P = d • G) : (if oddY P then -d else d) • G = even P := by
  subst h
  unfold even
  split
  · rw [neg_smul]
  · rfl

/-- The signature made with secret key d' (already of even public point) and a nonce k ≠ 0 verifies. -/
theorem made_verifies (th : TH) (d k : Sc) (pub : Pt) (m : Bytes) (hm : m.length = 32) (hpub : pub ≠ 0) (hd : d • G = even pub)
    (hk : k ≠ 0) (hc : (challenge th (xOf (mulG k)) (xb pub) m).2 = false) :
    schnorrVerify th ⟨xOf (mulG k), (challenge th (xOf (mulG k)) (xb pub) m).1 * d + (if oddY (mulG k) then -k else k)⟩ m (xb pub) =
      .ok () := by
  rw [mulG_eq] at hc ⊢
  have hR : k • G ≠ 0 := fun h => (smul_eq_zero.1 h).elim hk G_ne_zero
  rw [schnorrVerify_iff]
  refine ⟨hm, even pub, even (k • G), (lift_iff _ _).2 ⟨even_ne hpub, oddY_even _, (xb_even _).symm⟩, even_ne hR, oddY_even _,
    xOf_even _, hc, ?_⟩
  simp only
  rw [add_smul, sgn_scalar k _ rfl, mul_smul, hd, add_comm]

theorem schnorrSign_ok_iff (th : TH) (d k : Sc) (pub : Pt) (m : Bytes) (fast : Bool) (hm : m.length = 32) (hpub : pub ≠ 0)
    (hd : d • G = even pub) (hk : k ≠ 0) (g : Sig) : schnorrSign th d k pub m fast = .ok g ↔
      (challenge th (xOf (mulG k)) (xb pub) m).2 = false ∧
      g = ⟨xOf (mulG k), (challenge th (xOf (mulG k)) (xb pub) m).1 * d + (if oddY (mulG k) then -k else k)⟩ := by
  unfold schnorrSign
  simp only
  rw [serialize_eq]
  split
  · rename_i hc
    constructor
    · intro h; cases h
    · rintro ⟨h, -⟩; rw [hc] at h; cases h
  · rename_i hc
    have hc' : (challenge th (xOf (mulG k)) (xb pub) m).2 = false := by simpa using hc
    rw [made_verifies th d k pub m hm hpub hd hk hc']
    simp only
    constructor
    · intro h
      refine ⟨hc', ?_⟩
      split at h <;> (injection h with h; exact h.symm)
    · rintro ⟨-, rfl⟩
      split <;> rfl

/-- A signature that passed the final check of `schnorrSign` verifies whatever the nonce. -/
theorem schnorrSign_slow (th : TH) (d k : Sc) (pub : Pt) (m : Bytes) (g : Sig) (h : schnorrSign th d k pub m false = .ok g) :
    schnorrVerify th g m (xb pub) = .ok () := by
  unfold schnorrSign at h
  simp only at h
  rw [serialize_eq] at h
  split at h
  · cases h
  · rw [if_neg (by simp)] at h
    split at h
    · cases h
    · rename_i hv
      injection h with h
      rw [← h]
      exact hv

theorem signLoop_ok {th : TH} {nonce : Bytes → Bytes → UInt32 → Sc} {d : Sc} {pub : Pt} {m : Bytes} {fast : Bool} :
    ∀ {f : Nat} {i : UInt32} {r : Except SErr Sig}, signLoop th nonce d pub m fast f i = some r →
      ∃ j : UInt32, ∃ g, r = .ok g ∧ schnorrSign th d (nonce (putBytes d.val) m j) pub m fast = .ok g
  | 0, _, _, h => by cases h
  | f + 1, i, r, h => by
    unfold signLoop at h
    split at h
    · exact signLoop_ok h
    · rename_i g hg
      injection h with h
      exact ⟨i, g, h.symm, hg⟩

theorem mulG_ne {d : Sc} (hd : d ≠ 0) : mulG d ≠ 0 := by
  rw [mulG_eq]; exact fun h => (smul_eq_zero.1 h).elim hd G_ne_zero

theorem evenKey (d : Sc) : (if oddY (mulG d) then -d else d) • G = even (mulG d) := sgn_scalar d _ (mulG_eq d)

/-- **C95.** A signature returned by `Sign` verifies under the public key of the private key it was made with, for every message,
option and nonce; with FastSign this relies on the RFC 6979 nonces not being zero. -/
theorem C95_sign_verifies (th : TH) (nonce : Bytes → Bytes → UInt32 → Sc) (fuel : Nat) (d : Sc) (m : Bytes) (aux : Option Bytes)
    (fast : Bool) (g : Sig) (d' : Sc) (hn : fast = true → ∀ a b i, nonce a b i ≠ 0)
    (h : sign th nonce fuel d m aux fast = some (.ok g, d')) : verify th g m (mulG d) = true := by
  rw [verify_true]
  unfold sign at h
  split at h
  · cases h
  rename_i hm
  push Not at hm
  split at h
  · cases h
  rename_i hd
  simp only at h
  generalize hdd : (if oddY (mulG d) = true then -d else d) = d₁ at h
  have hd₁ : d₁ • G = even (mulG d) := by rw [← hdd]; exact evenKey d
  split at h
  · split at h
    · cases h
    rename_i hk
    injection h with h
    injection h with h _
    rw [schnorrSign_ok_iff th d₁ _ _ m fast hm (mulG_ne hd) hd₁ hk] at h
    obtain ⟨hc, rfl⟩ := h
    exact made_verifies th d₁ _ _ m hm (mulG_ne hd) hd₁ hk hc
  · cases hs : signLoop th nonce d₁ (mulG d) m fast fuel 0 with
    | none => rw [hs] at h; cases h
    | some r =>
      rw [hs] at h
      simp only [Option.map_some, Option.some.injEq, Prod.mk.injEq] at h
      obtain ⟨j, g', hr, hg⟩ := signLoop_ok hs
      rw [h.1] at hr
      injection hr with hr
      subst hr
      cases fast with
      | false => exact schnorrSign_slow th d₁ _ _ m g hg
      | true =>
        have hk := hn rfl (putBytes d₁.val) m j
        rw [schnorrSign_ok_iff th d₁ _ _ m true hm (mulG_ne hd) hd₁ hk] at hg
        obtain ⟨hc, rfl⟩ := hg
        exact made_verifies th d₁ _ _ m hm (mulG_ne hd) hd₁ hk hc

/-- **C95.** With the option CustomNonce, when `Sign` succeeds: 32 bytes of message, key and nonce not zero, challenge below the
group order; FastSign makes no difference. -/
theorem C95_custom_nonce (th : TH) (nonce : Bytes → Bytes → UInt32 → Sc) (fuel : Nat) (d : Sc) (m a : Bytes) (fast : Bool) :
    (∃ g d', sign th nonce fuel d m (some a) fast = some (.ok g, d')) ↔
      m.length = 32 ∧ d ≠ 0 ∧ ∃ k, k = auxNonce th (if oddY (mulG d) then -d else d) (mulG d) m a ∧ k ≠ 0 ∧
        beNat (th "BIP0340/challenge" (serializePubKey (mulG k) ++ serializePubKey (mulG d) ++ m)) < ord := by
  unfold sign
  split
  · rename_i hm
    constructor
    · rintro ⟨g, d', h⟩; cases h
    · rintro ⟨h, -⟩; exact absurd h hm
  rename_i hm
  push Not at hm
  split
  · rename_i hd
    constructor
    · rintro ⟨g, d', h⟩; cases h
    · rintro ⟨-, h, -⟩; exact absurd hd h
  rename_i hd
  simp only
  have hd₁ := evenKey d
  generalize (if oddY (mulG d) = true then -d else d) = d₁ at hd₁
  generalize auxNonce th d₁ (mulG d) m a = k
  split
  · rename_i hk
    constructor
    · rintro ⟨g, d', h⟩; cases h
    · rintro ⟨-, -, k', rfl, h, -⟩; exact absurd hk h
  · rename_i hk
    have hch : (challenge th (xOf (mulG k)) (xb (mulG d)) m).2 = false ↔
        beNat (th "BIP0340/challenge" (serializePubKey (mulG k) ++ serializePubKey (mulG d) ++ m)) < ord := by
      unfold challenge setBytes
      rw [serialize_eq, serialize_eq]
      simp only [decide_eq_false_iff_not, not_le]
      rfl
    constructor
    · rintro ⟨g, d', h⟩
      injection h with h
      injection h with h _
      rw [schnorrSign_ok_iff th d₁ _ _ m fast hm (mulG_ne hd) hd₁ hk] at h
      exact ⟨hm, hd, k, rfl, hk, hch.1 h.1⟩
    · rintro ⟨-, -, k', rfl, -, h⟩
      exact ⟨_, _, congrArg some (Prod.ext ((schnorrSign_ok_iff th d₁ _ _ m fast hm (mulG_ne hd) hd₁ hk _).2 ⟨hch.2 h, rfl⟩) rfl)⟩

theorem pick_val (k : Sc) (hk : k ≠ 0) : spec.pick k.val = ((if oddY (mulG k) then -k else k : Sc)).val := by
  have hkv : k.val • G = mulG k := by rw [mulG_eq, ← nat_smul, ZMod.natCast_zmod_val]
  unfold spec.pick
  rw [hkv]
  have hne := mulG_ne hk
  have hneg : (-k).val = ord - k.val := by
    have : NeZero k := ⟨hk⟩
    exact ZMod.val_neg_of_ne_zero k
  rcases point_cases (mulG k) with h0 | ⟨x, y, h, hp⟩
  · exact absurd h0 hne
  · have ho : oddY (mulG k) = (y.val % 2 == 1) := by rw [hp]; rfl
    split
    · rename_i hex
      obtain ⟨x', y', h', he, hy⟩ := hex
      have : oddY (mulG k) = false := by
        rw [he]
        show (y'.val % 2 == 1) = false
        rw [hy]; rfl
      rw [this]; simp
    · rename_i hex
      have hy : y.val % 2 = 1 := by
        by_contra hc
        exact hex ⟨x, y, h, hp, by omega⟩
      rw [ho, hy, ← hneg]; simp

/-- **C95.** With the option CustomNonce `Sign` returns exactly the signature of BIP 340's default signing for that key, message and
auxiliary data, for 32-byte messages and as long as the challenge hash is below the group order. -/
theorem C95_is_bip340 (th : TH) (nonce : Bytes → Bytes → UInt32 → Sc) (fuel : Nat) (d : Sc) (m a : Bytes) (fast : Bool) (g : Sig) :
    (∃ d', sign th nonce fuel d m (some a) fast = some (.ok g, d')) ↔
      m.length = 32 ∧ d ≠ 0 ∧ spec.sign th d.val m a = some g.serialize ∧ spec.chal th g.serialize (serializePubKey (mulG d)) m < ord := by
  have hkv : ∀ k : Sc, k.val • G = mulG k := by intro k; rw [mulG_eq, ← nat_smul, ZMod.natCast_zmod_val]
  unfold sign
  split
  · rename_i hm
    constructor
    · rintro ⟨d', h⟩; cases h
    · rintro ⟨h, -⟩; exact absurd h hm
  rename_i hm
  push Not at hm
  split
  · rename_i hd
    constructor
    · rintro ⟨d', h⟩; cases h
    · rintro ⟨-, h, -⟩; exact absurd hd h
  rename_i hd
  have hpk := pick_val d hd
  have hd₁ := evenKey d
  have hn : spec.sign th d.val m a = (let k := auxNonce th (if oddY (mulG d) = true then -d else d) (mulG d) m a
      if k = 0 then none else some (Sig.serialize ⟨xOf (mulG k), (challenge th (xOf (mulG k)) (xb (mulG d)) m).1 * (if oddY (mulG d) = true then -d else d) +
        (if oddY (mulG k) then -k else k)⟩)) := by
    unfold spec.sign
    rw [hpk, hkv]
    generalize (if oddY (mulG d) = true then -d else d) = d₁
    have ha : beNat (th "BIP0340/nonce" (List.zipWith (· ^^^ ·) (beFixed 32 d₁.val) (th "BIP0340/aux" a) ++ serializePubKey (mulG d) ++ m)) % ord =
        (auxNonce th d₁ (mulG d) m a).val := by
      unfold auxNonce setBytes
      simp only
      rw [ZMod.val_natCast, List.zipWith_comm_of_comm (f := fun x y : UInt8 => x ^^^ y) (fun x y => UInt8.xor_comm x y)]
      rfl
    simp only
    rw [ha]
    generalize auxNonce th d₁ (mulG d) m a = k
    simp only [ZMod.val_eq_zero, hkv]
    by_cases hk : k = 0
    · rw [if_pos hk, if_pos hk]
    · rw [if_neg hk, if_neg hk, pick_val k hk, serialize_eq, serialize_eq]
      unfold Sig.serialize
      simp only
      generalize (if oddY (mulG k) then -k else k) = k₁
      have he : (k₁.val + beNat (th "BIP0340/challenge" (xb (mulG k) ++ xb (mulG d) ++ m)) % ord * d₁.val) % ord =
          ((challenge th (xOf (mulG k)) (xb (mulG d)) m).1 * d₁ + k₁).val := by
        rw [ZMod.val_add, ZMod.val_mul, add_comm]
        unfold challenge setBytes
        simp only
        rw [ZMod.val_natCast, Nat.mod_add_mod]
        rfl
      rw [he]
      rfl
  rw [hn]
  simp only
  generalize (if oddY (mulG d) = true then -d else d) = d₁ at hd₁
  generalize auxNonce th d₁ (mulG d) m a = k
  by_cases hk : k = 0
  · rw [if_pos hk, if_pos hk]
    constructor
    · rintro ⟨d', h⟩; cases h
    · rintro ⟨-, -, h, -⟩; cases h
  · rw [if_neg hk, if_neg hk]
    have hch : ∀ g : Sig, g.r = xOf (mulG k) → ((challenge th (xOf (mulG k)) (xb (mulG d)) m).2 = false ↔
        spec.chal th g.serialize (serializePubKey (mulG d)) m < ord) := by
      intro g hg
      rw [← hg, chal_serialize, serialize_eq]
      simp only [decide_eq_false_iff_not, not_le]
    constructor
    · rintro ⟨d', h⟩
      injection h with h
      injection h with h _
      rw [schnorrSign_ok_iff th d₁ _ _ m fast hm (mulG_ne hd) hd₁ hk] at h
      exact ⟨hm, hd, by rw [h.2], (hch g (by rw [h.2])).1 h.1⟩
    · rintro ⟨-, -, h, hc⟩
      injection h with h
      have hg : g = ⟨xOf (mulG k), (challenge th (xOf (mulG k)) (xb (mulG d)) m).1 * d₁ + (if oddY (mulG k) then -k else k)⟩ := by
        have h1 := (C94_signature_encoding _ g).2 rfl
        rw [← h] at h1
        have h2 := (C94_signature_encoding _ ⟨xOf (mulG k), (challenge th (xOf (mulG k)) (xb (mulG d)) m).1 * d₁ + (if oddY (mulG k) then -k else k)⟩).2 rfl
        rw [h1] at h2
        injection h2
      exact ⟨_, congrArg some (Prod.ext ((schnorrSign_ok_iff th d₁ _ _ m fast hm (mulG_ne hd) hd₁ hk _).2 ⟨(hch g (by rw [hg])).2 hc, hg⟩) rfl)⟩

/-- **C95.** Without CustomNonce, if the RFC 6979 nonces are not zero: the attempt whose challenge hash is below the group order is
the first one to be used, earlier ones are skipped, and `Sign` never returns an error for a message of 32 bytes and a key that is not zero. -/
theorem C95_first_good_nonce (th : TH) (nonce : Bytes → Bytes → UInt32 → Sc) (hn : ∀ a b i, nonce a b i ≠ 0) (d : Sc) (m : Bytes)
    (fast : Bool) (hm : m.length = 32) (hd : d ≠ 0) (n fuel : Nat) (hf : n < fuel)
    (good : Nat → Prop) (hgood : ∀ i, good i ↔ beNat (th "BIP0340/challenge"
      (serializePubKey (mulG (nonce (putBytes ((if oddY (mulG d) then -d else d) : Sc).val) m (UInt32.ofNat i))) ++
        serializePubKey (mulG d) ++ m)) < ord)
    (hno : ∀ i < n, ¬good i) (hyes : good n) :
    ∃ g d', sign th nonce fuel d m none fast = some (.ok g, d') ∧
      g.r = xOf (mulG (nonce (putBytes ((if oddY (mulG d) then -d else d) : Sc).val) m (UInt32.ofNat n))) := by
  unfold sign
  rw [if_neg (by simpa using hm), if_neg hd]
  simp only
  have hd₁ := evenKey d
  generalize (if oddY (mulG d) = true then -d else d) = d₁ at hd₁ hgood
  have hch : ∀ i, (challenge th (xOf (mulG (nonce (putBytes d₁.val) m (UInt32.ofNat i)))) (xb (mulG d)) m).2 = false ↔ good i := by
    intro i
    rw [hgood]
    unfold challenge setBytes
    rw [serialize_eq, serialize_eq]
    simp only [decide_eq_false_iff_not, not_le]
    rfl
  have loop : ∀ (k : Nat) (f : Nat), k ≤ n → n - k < f →
      ∃ g, signLoop th nonce d₁ (mulG d) m fast f (UInt32.ofNat k) = some (.ok g) ∧
        g.r = xOf (mulG (nonce (putBytes d₁.val) m (UInt32.ofNat n))) := by
    intro k
    induction hk : n - k generalizing k with
    | zero =>
      intro f hle hf
      have : k = n := by omega
      subst this
      obtain ⟨f, rfl⟩ : ∃ f', f = f' + 1 := ⟨f - 1, by omega⟩
      unfold signLoop
      have := (schnorrSign_ok_iff th d₁ _ _ m fast hm (mulG_ne hd) hd₁ (hn (putBytes d₁.val) m (UInt32.ofNat k)) _).2
        ⟨(hch k).2 hyes, rfl⟩
      rw [this]
      exact ⟨_, rfl, rfl⟩
    | succ q ih =>
      intro f hle hf
      obtain ⟨f, rfl⟩ : ∃ f', f = f' + 1 := ⟨f - 1, by omega⟩
      unfold signLoop
      have hbad : ∃ e, schnorrSign th d₁ (nonce (putBytes d₁.val) m (UInt32.ofNat k)) (mulG d) m fast = .error e := by
        cases hs : schnorrSign th d₁ (nonce (putBytes d₁.val) m (UInt32.ofNat k)) (mulG d) m fast with
        | error e => exact ⟨e, rfl⟩
        | ok g =>
          rw [schnorrSign_ok_iff th d₁ _ _ m fast hm (mulG_ne hd) hd₁ (hn _ _ _)] at hs
          exact absurd ((hch k).1 hs.1) (hno k (by omega))
      obtain ⟨e, he⟩ := hbad
      rw [he]
      simp only
      have h1 : UInt32.ofNat k + 1 = UInt32.ofNat (k + 1) := by
        rw [UInt32.ofNat_add]; rfl
      rw [h1]
      exact ih (k + 1) (by omega) f (by omega) (by omega)
  obtain ⟨g, hg, hr⟩ := loop 0 fuel (by omega) (by omega)
  have h0 : UInt32.ofNat 0 = 0 := rfl
  rw [h0] at hg
  rw [hg]
  exact ⟨g, _, rfl, hr⟩

/-- **C95.** `Sign` refuses a message that is not 32 bytes long and a zero key, and then leaves the key alone. -/
theorem C95_refusals (th : TH) (nonce : Bytes → Bytes → UInt32 → Sc) (fuel : Nat) (d : Sc) (m : Bytes) (aux : Option Bytes) (fast : Bool) :
    (m.length ≠ 32 → sign th nonce fuel d m aux fast = some (.error .hashLen, d)) ∧
    (m.length = 32 → d = 0 → sign th nonce fuel d m aux fast = some (.error .keyZero, d)) := by
  unfold sign
  refine ⟨fun h => by rw [if_pos h], fun h h' => by rw [if_neg (by simpa using h), if_pos h']⟩

/-- **C95.** What is left in the caller's private key: after any call that got past the two refusals it holds the scalar whose public
key has even y. If the public key had odd y, the key the caller holds has been replaced by its opposite, and so has its public key. -/
theorem C95_private_key_changed (th : TH) (nonce : Bytes → Bytes → UInt32 → Sc) (fuel : Nat) (d : Sc) (m : Bytes) (aux : Option Bytes)
    (fast : Bool) (hm : m.length = 32) (hd : d ≠ 0) (r : Except SErr Sig) (d' : Sc)
    (h : sign th nonce fuel d m aux fast = some (r, d')) :
    oddY (mulG d') = false ∧ (oddY (mulG d) = false → d' = d) ∧
    (oddY (mulG d) = true → d' = -d ∧ mulG d' = -mulG d ∧ mulG d' ≠ mulG d) := by
  have key : d' = if oddY (mulG d) then -d else d := by
    unfold sign at h
    rw [if_neg (by simpa using hm), if_neg hd] at h
    simp only at h
    generalize (if oddY (mulG d) = true then -d else d) = d₁ at h ⊢
    split at h
    · split at h <;> (injection h with h; injection h with _ h; exact h.symm)
    ·
      cases hs : signLoop th nonce d₁ (mulG d) m fast fuel 0 with
      | none => rw [hs] at h; cases h
      | some r =>
        rw [hs] at h
        simp only [Option.map_some, Option.some.injEq, Prod.mk.injEq] at h
        exact h.2.symm
  subst key
  refine ⟨?_, fun h => by rw [h]; rfl, fun h => ?_⟩
  · rw [mulG_eq, evenKey]; exact oddY_even _
  · rw [h]
    simp only [if_true]
    have hneg : mulG (-d) = -mulG d := by rw [mulG_eq, mulG_eq, neg_smul]
    refine ⟨trivial, hneg, fun he => ?_⟩
    have := oddY_neg (mulG_ne hd)
    rw [← hneg, he, h] at this
    cases this

/-- **C95.** The change is invisible to later calls of `Sign`: signing again with the key left behind gives the same answer. -/
theorem C95_sign_again (th : TH) (nonce : Bytes → Bytes → UInt32 → Sc) (fuel : Nat) (d : Sc) (m : Bytes) (aux : Option Bytes)
    (fast : Bool) (r : Except SErr Sig) (d' : Sc)
    (h : sign th nonce fuel d m aux fast = some (r, d')) : sign th nonce fuel d' m aux fast = some (r, d') := by
  by_cases hm : m.length = 32
  swap
  · rw [(C95_refusals th nonce fuel d m aux fast).1 hm] at h
    injection h with h; injection h with h1 h2
    subst h1; subst h2
    exact (C95_refusals th nonce fuel d m aux fast).1 hm
  by_cases hd : d = 0
  · rw [(C95_refusals th nonce fuel d m aux fast).2 hm hd] at h
    injection h with h; injection h with h1 h2
    subst h1; subst h2
    exact (C95_refusals th nonce fuel d m aux fast).2 hm hd
  obtain ⟨hev, h1, h2⟩ := C95_private_key_changed th nonce fuel d m aux fast hm hd r d' h
  cases ho : oddY (mulG d) with
  | false => rw [h1 ho]; rw [h1 ho] at h; exact h
  | true =>
    obtain ⟨e1, e2, -⟩ := h2 ho
    have hd' : d' ≠ 0 := by rw [e1]; exact neg_ne_zero.2 hd
    have hx : xOf (mulG d') = xOf (mulG d) := by rw [e2, xOf_neg]
    have hxb : xb (mulG d') = xb (mulG d) := by unfold xb; rw [hx]
    have hsc : ∀ k, schnorrSign th d' k (mulG d') m fast = schnorrSign th d' k (mulG d) m fast := by
      intro k; unfold schnorrSign; rw [serialize_eq, serialize_eq, hxb]
    have hl : ∀ f i, signLoop th nonce d' (mulG d') m fast f i = signLoop th nonce d' (mulG d) m fast f i := by
      intro f
      induction f with
      | zero => intro i; rfl
      | succ f ih => intro i; unfold signLoop; rw [hsc]; split <;> simp_all
    have hax : ∀ a, auxNonce th d' (mulG d') m a = auxNonce th d' (mulG d) m a := by
      intro a
      unfold auxNonce
      simp only
      have : (compressed (mulG d')).drop 1 = (compressed (mulG d)).drop 1 := by
        have h1 := serialize_eq (mulG d'); have h2 := serialize_eq (mulG d)
        unfold serializePubKey at h1 h2
        rw [h1, h2, hxb]
      rw [this]
    unfold sign at h ⊢
    rw [if_neg (by simpa using hm), if_neg hd] at h
    rw [if_neg (by simpa using hm), if_neg hd']
    simp only at h ⊢
    rw [ho] at h
    rw [hev]
    simp only [if_true] at h
    simp only [Bool.false_eq_true, if_false]
    rw [← e1] at h
    cases aux with
    | none => simp only at h ⊢; rw [hl]; exact h
    | some a => simp only at h ⊢; rw [hax, hsc]; exact h

/-- **C95.** Using a nonce twice gives the key away: from two signatures with the same r by the same key on different challenges anyone
computes the private key (up to the sign that the x-only key forgets). -/
theorem C95_nonce_reuse (th : TH) (d : Sc) (g g' : Sig) (m m' : Bytes) (hd : d ≠ 0)
    (h : verify th g m (mulG d) = true) (h' : verify th g' m' (mulG d) = true) (hr : g.r = g'.r)
    (he : (challenge th g.r (serializePubKey (mulG d)) m).1 ≠ (challenge th g.r (serializePubKey (mulG d)) m').1) :
    let x := (g.s - g'.s) / ((challenge th g.r (serializePubKey (mulG d)) m).1 - (challenge th g.r (serializePubKey (mulG d)) m').1)
    (x = d ∨ x = -d) ∧ serializePubKey (mulG x) = serializePubKey (mulG d) := by
  rw [verify_true, schnorrVerify_iff] at h h'
  rw [serialize_eq] at he
  intro x
  obtain ⟨-, P, R, hL, hR, ho, hx, hc, hs⟩ := h
  obtain ⟨-, P', R', hL', hR', ho', hx', hc', hs'⟩ := h'
  have hRR : R = R' := ext_of hR hR' (by rw [hx, hx', hr]) (by rw [ho, ho'])
  have hPP := lift_unique hL hL'
  subst hRR; subst hPP
  rw [← hr] at hs'
  have hPe : P = even (mulG d) := lift_unique hL ((lift_iff _ _).2 ⟨even_ne (mulG_ne hd), oddY_even _, (xb_even _).symm⟩)
  have hx2 : x = (g.s - g'.s) / ((challenge th g.r (xb (mulG d)) m).1 - (challenge th g.r (xb (mulG d)) m').1) := by
    change (g.s - g'.s) / ((challenge th g.r (serializePubKey (mulG d)) m).1 - (challenge th g.r (serializePubKey (mulG d)) m').1) = _
    rw [serialize_eq]
  generalize (challenge th g.r (xb (mulG d)) m).1 = e at *
  generalize (challenge th g.r (xb (mulG d)) m').1 = e' at *
  have hdiff : (g.s - g'.s) • G = (e - e') • P := by rw [sub_smul, hs, hs', sub_smul]; abel
  rw [hPe, ← evenKey, smul_smul] at hdiff
  have := smulG_inj hdiff
  have hne : e - e' ≠ 0 := sub_ne_zero.2 he
  have hxd : x = if oddY (mulG d) then -d else d := by
    rw [hx2, this, mul_div_cancel_left₀ _ hne]
  refine ⟨?_, ?_⟩
  · rw [hxd]; split
    · right; rfl
    · left; rfl
  · rw [hxd, serialize_eq, serialize_eq, mulG_eq, evenKey, xb_even]

/-! ### Examples: the hypotheses are met -/

/-- A hash that makes every challenge 1. -/
def oneHash : TH := fun _ _ => putBytes 1

theorem oneHash_nat (t : String) (b : Bytes) : beNat (oneHash t b) = 1 := by
  unfold oneHash; exact beNat_putBytes (by norm_num)

/-- A signature is returned, and it verifies: with that hash, the key 1 and nonces 1. -/
example : ∃ g d', sign oneHash (fun _ _ _ => 1) 5 1 (List.replicate 32 0) none true = some (.ok g, d') ∧
    verify oneHash g (List.replicate 32 0) (mulG 1) = true := by
  obtain ⟨g, d', h, -⟩ := C95_first_good_nonce oneHash (fun _ _ _ => 1) (fun _ _ _ => one_ne_zero) 1 (List.replicate 32 0) true (by simp)
    one_ne_zero 0 5 (by norm_num) (fun _ => True) (fun i => by rw [oneHash_nat]; simpa using Secp.ord_prime.one_lt)
    (fun i h => absurd h (Nat.not_lt_zero i)) trivial
  exact ⟨g, d', h, C95_sign_verifies oneHash _ 5 1 _ none true g d' (fun _ _ _ _ => one_ne_zero) h⟩

/-- A key with odd y exists, and `Sign` replaces it. -/
example : ∃ d : Sc, d ≠ 0 ∧ oddY (mulG d) = true := by
  have h1 : mulG (1 : Sc) ≠ 0 := mulG_ne one_ne_zero
  cases h : oddY (mulG (1 : Sc)) with
  | true => exact ⟨1, one_ne_zero, h⟩
  | false =>
    refine ⟨-1, neg_ne_zero.2 one_ne_zero, ?_⟩
    have : mulG (-1 : Sc) = -mulG 1 := by rw [mulG_eq, mulG_eq, neg_smul]
    rw [this, oddY_neg h1, h]; rfl

/-- A hash above the group order: the departure from BIP 340 is met. -/
example : ∃ b, spec.Valid (fun _ _ => List.replicate 32 255) (serializePubKey G) [] b ∧
    ¬∃ g, parseSignature b = .ok g ∧ verify (fun _ _ => List.replicate 32 255) g [] G = true := by
  obtain ⟨b, -, h⟩ := C94_rejects_valid (fun _ _ => List.replicate 32 255) [] G G G_ne_zero G_ne_zero (by decide +kernel)
  exact ⟨b, h⟩

end Tss.Bip340
