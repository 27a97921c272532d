import Verif.Props.MusigSign
/-
C97 (honest sessions, reuse of nonces) and C98 (nonces).
-/
namespace Tss.Musig2
open Tss Tss.Bip340
open Tss.Secp (E p ord G pt point_cases G_ne_zero)

/-- An honest signer: private key and 64-byte secret nonce. -/
structure Signer where
  d : Sc
  sec : Bytes

/-- Neither the key nor one of the two nonce scalars is zero. -/
def Signer.Usable (s : Signer) : Prop := s.d ≠ 0 ∧ beNat (s.sec.take 32) % ord ≠ 0 ∧ beNat (s.sec.drop 32) % ord ≠ 0

theorem serialize_even (k : Pt) : serializePubKey (even k) = serializePubKey k := by rw [serialize_eq, serialize_eq, xb_even]

theorem setBytes_ne {b : Bytes} : (setBytes b).1 ≠ 0 ↔ beNat b % ord ≠ 0 := by
  unfold setBytes
  simp only
  rw [ne_eq, ZMod.natCast_eq_zero_iff, Nat.dvd_iff_mod_eq_zero]

theorem forall₂_map {α β : Type} {R : α → β → Prop} (f : α → β) : ∀ (l : List α), (∀ a ∈ l, R a (f a)) → List.Forall₂ R l (l.map f)
  | [], _ => .nil
  | a :: l, h => .cons (h a (by simp)) (forall₂_map f l (fun b hb => h b (by simp [hb])))

theorem forall₂_ex {α β : Type} {R : α → β → Prop} : ∀ (l : List α), (∀ a ∈ l, ∃ b, R a b) → ∃ l', List.Forall₂ R l l'
  | [], _ => ⟨[], .nil⟩
  | a :: l, h => by
    obtain ⟨b, hb⟩ := h a (by simp)
    obtain ⟨l', hl⟩ := forall₂_ex l (fun c hc => h c (by simp [hc]))
    exact ⟨b :: l', .cons hb hl⟩

/-- The public nonces of usable signers aggregate. -/
theorem honest_nonces (signers : List Signer) (hu : ∀ s ∈ signers, s.Usable) :
    aggregateNonces (signers.map fun s => secNonceToPubNonce s.sec) = .ok
      (jacobianToBytes (signers.map fun s => (setBytes (s.sec.take 32)).1 • G).sum ++
       jacobianToBytes (signers.map fun s => (setBytes (s.sec.drop 32)).1 • G).sum) := by
  rw [aggregateNonces_ok]
  refine ⟨_, _, ?_, ?_, rfl⟩
  · rw [List.map_map, List.forall₂_map_left_iff]
    exact forall₂_map _ _ fun s hs => (secNonce_parse (setBytes_ne.2 (hu s hs).2.1) (setBytes_ne.2 (hu s hs).2.2)).1
  · rw [List.map_map, List.forall₂_map_left_iff]
    exact forall₂_map _ _ fun s hs => (secNonce_parse (setBytes_ne.2 (hu s hs).2.1) (setBytes_ne.2 (hu s hs).2.2)).2

/-- **C97.** An honest session: any number of signers with usable keys and nonces, their keys exchanged as x-only keys, any tweaks, sorting
or not. The nonces aggregate, every signer's `Sign` succeeds with the session's nonce R, every partial signature verifies, and the
combination is a valid BIP 340 signature of the message under the aggregated key — unless R is infinity, the key is infinity, or the
challenge hash is not below the group order. -/
theorem C97_honest (th : TH) (signers : List Signer) (hu : ∀ s ∈ signers, s.Usable) (msg : Bytes) (hm : msg.length = 32) (o : SignOpts)
    (ag : Agg) (hag : aggregateKeys th (signers.map fun s => even (mulG s.d)) o.sort o.tweakOpt = .ok ag) :
    ∃ cn R, aggregateNonces (signers.map fun s => secNonceToPubNonce s.sec) = .ok cn ∧ spec.Nonce th cn ag.final msg R ∧
      ∃ sigs : List PSig,
        List.Forall₂ (fun s q => sign th s.sec s.d cn (signers.map fun s => even (mulG s.d)) msg o = .ok q ∧ (R ≠ 0 → q.R = R) ∧
          verifyPartial th q.S (secNonceToPubNonce s.sec) cn (signers.map fun s => even (mulG s.d)) (mulG s.d) msg o = .ok ()) signers sigs ∧
        (R ≠ 0 → ag.final ≠ 0 → spec.chal th R ag.final msg < ord →
          verify th (combineSigs th R (sigs.map PSig.S) (some ⟨msg, ag.final, ag.tweakAcc⟩)) msg ag.final = true) := by
  have hn := honest_nonces signers hu
  generalize hcn : jacobianToBytes (signers.map fun s => (setBytes (s.sec.take 32)).1 • G).sum ++
       jacobianToBytes (signers.map fun s => (setBytes (s.sec.drop 32)).1 • G).sum = cn at hn
  generalize (signers.map fun s => (setBytes (s.sec.take 32)).1 • G).sum = R1 at hcn
  generalize (signers.map fun s => (setBytes (s.sec.drop 32)).1 • G).sum = R2 at hcn
  have e1 : parseJacobian (cn.take 33) = .ok R1 := by rw [← hcn, jac_take]; exact parseJacobian_toBytes _
  have e2 : parseJacobian (cn.drop 33) = .ok R2 := by rw [← hcn, jac_drop]; exact parseJacobian_toBytes _
  generalize hkeys : (signers.map fun s => even (mulG s.d)) = keys at hag ⊢
  have hN : spec.Nonce th cn ag.final msg
      (R1 + beNat (th "MuSig/noncecoef" (cn ++ serializePubKey ag.final ++ msg)) • R2) := ⟨R1, R2, e1, e2, rfl⟩
  generalize hR : R1 + beNat (th "MuSig/noncecoef" (cn ++ serializePubKey ag.final ++ msg)) • R2 = R at hN
  refine ⟨cn, R, hn, hN, ?_⟩
  have hsig : ∀ s ∈ signers, ∃ q : PSig, sign th s.sec s.d cn keys msg o = .ok q ∧ (R ≠ 0 → q.R = R) ∧
      verifyPartial th q.S (secNonceToPubNonce s.sec) cn keys (mulG s.d) msg o = .ok () := by
    intro s hs
    obtain ⟨q, hq⟩ := (C97_sign_iff th s.sec s.d cn keys msg o).2
      ⟨(hu s hs).1, (hu s hs).2.1, (hu s hs).2.2, ⟨ag, hag⟩, ⟨R1, e1⟩, ⟨R2, e2⟩⟩
    refine ⟨q, hq, fun h0 => ?_, C97_sign_verifies th _ _ _ _ _ _ q hq⟩
    obtain ⟨-, -, -, ag', r1, r2, a1, a2, a3, a4, -⟩ := (sign_spec th s.sec s.d cn keys msg o q).1 hq
    rw [hag] at a1; injection a1 with a1; subst a1
    rw [e1] at a2; injection a2 with a2; subst a2
    rw [e2] at a3; injection a3 with a3; subst a3
    rw [a4, blinder_smul, hR]
    unfold effNonce
    rw [if_neg h0]
  obtain ⟨sigs, hsigs⟩ := forall₂_ex _ hsig
  refine ⟨sigs, hsigs, fun h0 hQ hc => ?_⟩
  have hparts : ∀ {l : List Signer} {l' : List PSig}, List.Forall₂ (fun s q => sign th s.sec s.d cn keys msg o = .ok q ∧
      (R ≠ 0 → q.R = R) ∧ verifyPartial th q.S (secNonceToPubNonce s.sec) cn keys (mulG s.d) msg o = .ok ()) l l' →
      ∃ parts : List Part, parts.map Part.S = l'.map PSig.S ∧ parts.map Part.pub = (l.map fun s => secNonceToPubNonce s.sec) ∧
        parts.map Part.key = (l.map fun s => even (mulG s.d)) ∧
        (∀ q ∈ parts, oddY q.key = false ∧ verifyPartial th q.S q.pub cn keys q.key msg o = .ok ()) := by
    intro l l' h
    induction h with
    | nil => exact ⟨[], rfl, rfl, rfl, by simp⟩
    | @cons s q l l' h _ ih =>
      obtain ⟨parts, i1, i2, i3, i4⟩ := ih
      refine ⟨⟨even (mulG s.d), secNonceToPubNonce s.sec, q.S⟩ :: parts, by simp [i1], by simp [i2], by simp [i3], ?_⟩
      intro r hr
      rcases List.mem_cons.1 hr with rfl | hr
      · refine ⟨oddY_even _, ?_⟩
        have := h.2.2
        unfold verifyPartial at this ⊢
        rw [serialize_even]
        exact this
      · exact i4 r hr
  obtain ⟨parts, p1, p2, p3, p4⟩ := hparts hsigs
  rw [hkeys] at p3
  rw [← p1]
  rw [← p2] at hn
  subst p3
  exact C97_combine th parts msg cn o ag R hm hn hag (fun q hq => (p4 q hq).1) hN h0 hQ hc (fun q hq => (p4 q hq).2)

/-- **C97.** A secret nonce pair used in three sessions gives the key away: with b_i the blinding factors, t_i the signatures (with the sign of
the session nonce) and w_i the public factors of the key, the key times a public determinant is a public quantity. -/
theorem C97_nonce_reuse (th : TH) (sec : Bytes) (d : Sc) (cn : Fin 3 → Bytes) (keys : Fin 3 → List Pt) (msg : Fin 3 → Bytes)
    (o : Fin 3 → SignOpts) (sig : Fin 3 → PSig) (ag : Fin 3 → Agg) (h : ∀ i, sign th sec d (cn i) (keys i) (msg i) (o i) = .ok (sig i))
    (hag : ∀ i, aggregateKeys th (keys i) (o i).sort (o i).tweakOpt = .ok (ag i)) (encs : Fin 3 → List Bytes)
    (he : ∀ i, spec.Ordered (o i).sort (keys i) (encs i)) (b t w : Fin 3 → Sc)
    (hb : ∀ i, b i = (beNat (th "MuSig/noncecoef" (cn i ++ serializePubKey (ag i).final ++ msg i)) : Sc))
    (ht : ∀ i, t i = sgn (sig i).R * (sig i).S)
    (hw : ∀ i, w i = sgn (sig i).R * (spec.chal th (sig i).R (ag i).final (msg i) : Sc) *
      (spec.coef th (encs i) (serializePubKey (mulG d)) : Sc) * sgn (ag i).final * (ag i).parityAcc) :
    (sgn (mulG d) * d) * ((b 1 - b 2) * w 0 + (b 2 - b 0) * w 1 + (b 0 - b 1) * w 2) =
      (b 1 - b 2) * t 0 + (b 2 - b 0) * t 1 + (b 0 - b 1) * t 2 := by
  have key : ∀ i, t i = (setBytes (sec.take 32)).1 + (setBytes (sec.drop 32)).1 * b i + w i * (sgn (mulG d) * d) := by
    intro i
    obtain ⟨-, -, -, ag', r1, r2, a1, -, -, -, a5⟩ := (sign_spec th sec d (cn i) (keys i) (msg i) (o i) (sig i)).1 (h i)
    rw [hag i] at a1; injection a1 with a1; subst a1
    have hb' : nonceBlinder th (cn i) (ag i).final (msg i) = b i := (hb i).symm
    rw [hb'] at a5
    have hcf : cf th (maybeSort (o i).sort (keys i)) (mulG d) = (spec.coef th (encs i) (serializePubKey (mulG d)) : Sc) := by
      unfold cf
      rw [ordered_unique (ordered_maybeSort (o i).sort (keys i)) (he i) (Or.inl rfl)]
    rw [hcf, challengeOf_eq] at a5
    rw [ht i, hw i, a5]
    have hs := sgn_sq (sig i).R
    generalize sgn (sig i).R = s at *
    generalize (setBytes (sec.take 32)).1 = k1
    generalize (setBytes (sec.drop 32)).1 = k2
    linear_combination (k1 + k2 * b i) * hs
  rw [key 0, key 1, key 2]
  ring

/-! ### C98: nonces -/

namespace spec

/-- The string hashed for the i-th nonce: randomness, then key, message and auxiliary input, each with its length, and the index. -/
def nonceString (rand : Bytes) (i : Nat) (o : GenOpts) : Bytes :=
  rand ++ beFixed 1 o.combinedKey.length ++ o.combinedKey ++ beFixed 1 o.msg.length ++ o.msg ++ beFixed 4 o.auxInput.length ++ o.auxInput ++ beFixed 1 i

end spec

theorem beFixed_one (n : Nat) (h : n < 256) : beFixed 1 n = [UInt8.ofNat n] := by
  have h1 : (beFixed 1 n).length = 1 := beFixed_length _ _
  have h2 : beNat (beFixed 1 n) = n := by rw [beNat_beFixed]; exact Nat.mod_eq_of_lt (by simpa using h)
  have h3 : beNat [UInt8.ofNat n] = n := by
    rw [beNat_cons]
    simp [beNat, Nat.mod_eq_of_lt h]
  exact beNat_inj _ _ (by rw [h1]; rfl) (by rw [h2, h3])

/-- **C98.** The two secret nonces are hashes, reduced, of the specified strings, with the indices 0 and 1; the public nonce holds the points of
exactly those scalars. -/
theorem C98_generated (th : TH) (rand : Bytes) (o : GenOpts) (hk : o.secretKey.length ≠ 32) (h1 : o.combinedKey.length < 256)
    (h2 : o.msg.length < 256) :
    (genNonces th rand o).2 = beFixed 32 (beNat (th "MuSig/nonce" (spec.nonceString rand 0 o)) % ord) ++
      beFixed 32 (beNat (th "MuSig/nonce" (spec.nonceString rand 1 o)) % ord) := by
  have hs : ∀ i, i < 256 → nonceInput rand i o = spec.nonceString rand i o := by
    intro i hi
    unfold nonceInput spec.nonceString
    rw [beFixed_one _ h1, beFixed_one _ h2, beFixed_one _ hi]
    simp
  have hv : ∀ x : Nat, (x : Sc).val = x % ord := fun x => ZMod.val_natCast _ _
  unfold genNonces maskRand
  simp only
  rw [if_neg hk, hs 0 (by norm_num), hs 1 (by norm_num)]
  unfold setBytes putBytes
  simp only
  rw [hv, hv]

/-- **C98.** With a secret key of 32 bytes the randomness is first replaced by key ⊕ H(MuSig/aux, randomness). -/
theorem C98_secret_key_mixed (th : TH) (rand key : Bytes) (o : GenOpts) (hk : key.length = 32) (hh : (th "MuSig/aux" rand).length = 32) :
    genNonces th rand { o with secretKey := key } = genNonces th (List.zipWith (· ^^^ ·) key (th "MuSig/aux" rand)) { o with secretKey := [] } ∧
    ∀ key', key'.length = 32 → List.zipWith (· ^^^ ·) key' (th "MuSig/aux" rand) = List.zipWith (· ^^^ ·) key (th "MuSig/aux" rand) →
      key' = key := by
  constructor
  · unfold genNonces maskRand nonceInput
    simp only
    rw [if_pos hk, if_neg (by simp)]
  · intro key' hk' h
    have hinj : ∀ (a b c : Bytes), a.length = c.length → b.length = c.length →
        List.zipWith (· ^^^ ·) a c = List.zipWith (· ^^^ ·) b c → a = b := by
      intro a
      induction a with
      | nil =>
        intro b c h1 h2 _
        rw [List.length_nil] at h1
        rw [← h1] at h2
        exact (List.length_eq_zero_iff.1 h2).symm
      | cons x a ih =>
        intro b c h1 h2 h
        cases c with
        | nil => simp at h1
        | cons z c =>
          cases b with
          | nil => simp at h2
          | cons y b =>
            simp only [List.zipWith_cons_cons, List.cons.injEq] at h
            rw [ih b c (by simpa using h1) (by simpa using h2) h.2, (UInt8.xor_left_inj _).1 h.1]
    exact hinj _ _ _ (by omega) (by omega) h

/-- **C98.** The strings hashed are unambiguous: equal strings come from equal randomness, index, key, message and auxiliary input. -/
theorem C98_input_injective (r r' : Bytes) (i i' : Nat) (o o' : GenOpts) (hr : r.length = 32) (hr' : r'.length = 32)
    (hi : i < 256) (hi' : i' < 256) (h1 : o.combinedKey.length < 256) (h1' : o'.combinedKey.length < 256)
    (h2 : o.msg.length < 256) (h2' : o'.msg.length < 256) (h3 : o.auxInput.length < 256 ^ 4) (h3' : o'.auxInput.length < 256 ^ 4)
    (h : nonceInput r i o = nonceInput r' i' o') :
    r = r' ∧ i = i' ∧ o.combinedKey = o'.combinedKey ∧ o.msg = o'.msg ∧ o.auxInput = o'.auxInput := by
  have hu : ∀ {a b : Nat}, a < 256 → b < 256 → UInt8.ofNat a = UInt8.ofNat b → a = b := by
    intro a b ha hb e
    have := congrArg UInt8.toNat e
    simpa [Nat.mod_eq_of_lt ha, Nat.mod_eq_of_lt hb] using this
  unfold nonceInput at h
  simp only [List.append_assoc, List.cons_append] at h
  obtain ⟨a1, h⟩ := List.append_inj h (by omega)
  injection h with b1 h
  have l1 := hu h1 h1' b1
  obtain ⟨a2, h⟩ := List.append_inj h l1
  injection h with b2 h
  have l2 := hu h2 h2' b2
  obtain ⟨a3, h⟩ := List.append_inj h l2
  obtain ⟨b3, h⟩ := List.append_inj h (by rw [beFixed_length, beFixed_length])
  have l3 : o.auxInput.length = o'.auxInput.length := by
    have := congrArg beNat b3
    rwa [beNat_beFixed, beNat_beFixed, Nat.mod_eq_of_lt h3, Nat.mod_eq_of_lt h3'] at this
  obtain ⟨a4, h⟩ := List.append_inj h l3
  injection h with b4 _
  exact ⟨a1, hu hi hi' b4, a2, a3, a4⟩

/-- **C98.** The public nonce of a generated pair: 66 bytes, the compressed points of the two scalars in the 64 bytes of the secret nonce. -/
theorem C98_public_matches (th : TH) (rand : Bytes) (o : GenOpts) :
    (genNonces th rand o).2.length = 64 ∧ (genNonces th rand o).1.length = 66 ∧
    beNat ((genNonces th rand o).2.take 32) < ord ∧ beNat ((genNonces th rand o).2.drop 32) < ord ∧
    (genNonces th rand o).1 = compressed (beNat ((genNonces th rand o).2.take 32) • G) ++
      compressed (beNat ((genNonces th rand o).2.drop 32) • G) := by
  unfold genNonces
  simp only
  generalize (setBytes (th "MuSig/nonce" (nonceInput (maskRand th rand o) 0 o))).1 = k1
  generalize (setBytes (th "MuSig/nonce" (nonceInput (maskRand th rand o) 1 o))).1 = k2
  have t1 : (putBytes k1.val ++ putBytes k2.val).take 32 = putBytes k1.val := List.take_left' (putBytes_length _)
  have t2 : (putBytes k1.val ++ putBytes k2.val).drop 32 = putBytes k2.val := List.drop_left' (putBytes_length _)
  have hlt : ∀ k : Sc, k.val < 256 ^ 32 := fun k => lt_trans (ZMod.val_lt k) (by unfold ord; norm_num)
  refine ⟨by rw [List.length_append, putBytes_length, putBytes_length], ?_, ?_, ?_, ?_⟩
  · unfold secNonceToPubNonce; rw [List.length_append, compressed_length, compressed_length]
  · rw [t1, beNat_putBytes (hlt _)]; exact ZMod.val_lt _
  · rw [t2, beNat_putBytes (hlt _)]; exact ZMod.val_lt _
  · unfold secNonceToPubNonce
    rw [t1, t2]
    unfold setBytes
    simp only
    rw [mulG_eq, mulG_eq, nat_smul, nat_smul]

/-- **C98.** A reader that delivers fewer than 32 bytes is not noticed: the rest stays zero, and equal short reads give equal nonces. -/
theorem C98_short_read (th : TH) (b : Bytes) (o : GenOpts) (h : b.length ≤ 32) :
    genNoncesFrom th (some b) o = some (genNonces th (b ++ List.replicate (32 - b.length) 0) o) ∧
    genNoncesFrom th (some []) o = some (genNonces th (List.replicate 32 0) o) ∧ genNoncesFrom th none o = none := by
  refine ⟨?_, rfl, rfl⟩
  unfold genNoncesFrom pad32
  rw [Option.map_some]
  have : (b ++ List.replicate 32 (0 : UInt8)).take 32 = b ++ List.replicate (32 - b.length) 0 := by
    rw [List.take_append, List.take_of_length_le h, List.take_replicate, Nat.min_eq_left (by omega)]
  rw [this]

/-- **C98.** Public nonces aggregate exactly when both halves of each of them parse; the result is the encodings of the two sums. -/
theorem C98_aggregate (l : List Bytes) (cn : Bytes) : aggregateNonces l = .ok cn ↔ ∃ ps qs : List Pt,
    List.Forall₂ (fun b P => parseJacobian (b.take 33) = .ok P) l ps ∧ List.Forall₂ (fun b P => parseJacobian (b.drop 33) = .ok P) l qs ∧
    cn = jacobianToBytes ps.sum ++ jacobianToBytes qs.sum := by
  rw [aggregateNonces_ok]
  simp only [List.forall₂_map_left_iff]

/-- **C98.** A half parses exactly when it is the compressed encoding of a point, or 33 bytes beginning with zero: all of these stand for
infinity, whatever follows the zero. -/
theorem C98_half_parses (b : Bytes) (P : Pt) : parseJacobian b = .ok P ↔
    (P ≠ 0 ∧ b = compressed P) ∨ (P = 0 ∧ b.length = 33 ∧ b.head? = some 0) := parseJacobian_iff b P

/-- **C98.** The order of the public nonces does not matter. -/
theorem C98_order_irrelevant (l l' : List Bytes) (h : l.Perm l') (cn : Bytes) (h1 : aggregateNonces l = .ok cn) :
    aggregateNonces l' = .ok cn := by
  rw [C98_aggregate] at h1 ⊢
  obtain ⟨ps, qs, h2, h3, rfl⟩ := h1
  obtain ⟨ps', a1, a2⟩ := List.perm_comp_forall₂ (h.symm) h2
  obtain ⟨qs', b1, b2⟩ := List.perm_comp_forall₂ (h.symm) h3
  exact ⟨ps', qs', a1, b1, by rw [a2.sum_eq, b2.sum_eq]⟩

/-- **C98.** Honest nonces aggregate to the sums of their points. -/
theorem C98_honest (secs : List Bytes) (h : ∀ s ∈ secs, beNat (s.take 32) % ord ≠ 0 ∧ beNat (s.drop 32) % ord ≠ 0) :
    aggregateNonces (secs.map secNonceToPubNonce) = .ok (jacobianToBytes (secs.map fun s => beNat (s.take 32) • G).sum ++
      jacobianToBytes (secs.map fun s => beNat (s.drop 32) • G).sum) := by
  have := honest_nonces (secs.map fun s => ⟨1, s⟩) (by
    intro s hs
    obtain ⟨b, hb, rfl⟩ := List.mem_map.1 hs
    exact ⟨one_ne_zero, h b hb⟩)
  simp only [List.map_map, Function.comp_def] at this
  rw [this]
  simp only [setBytes, nat_smul]

/-- **C98.** A secret nonce that is zero has a public nonce that no one can aggregate. -/
theorem C98_zero_nonce (l : List Bytes) (sec : Bytes) (h : beNat (sec.take 32) % ord = 0 ∨ beNat (sec.drop 32) % ord = 0)
    (hm : secNonceToPubNonce sec ∈ l) : ∀ cn, aggregateNonces l ≠ .ok cn := by
  intro cn hcn
  rw [C98_aggregate] at hcn
  obtain ⟨ps, qs, h1, h2, -⟩ := hcn
  have hz : ∀ (f : Bytes → Bytes) {l : List Bytes} {ps : List Pt}, List.Forall₂ (fun b P => parseJacobian (f b) = .ok P) l ps →
      ∀ x ∈ l, ∃ P, parseJacobian (f x) = .ok P := by
    intro f l ps h
    induction h with
    | nil => simp
    | cons a _ ih =>
      intro x hx
      rcases List.mem_cons.1 hx with rfl | hx
      · exact ⟨_, a⟩
      · exact ih x hx
  have hno : ∀ P, parseJacobian (compressed 0) ≠ .ok P := by
    intro P hP
    rw [parseJacobian_iff] at hP
    rcases hP with ⟨h0, he⟩ | ⟨-, -, he⟩
    · obtain ⟨e, h2⟩ := parseXOnly_zero
      have h3 := parseXOnly_xb h0
      unfold compressed at he
      injection he with _ he
      rw [← he, h2] at h3
      cases h3
    · unfold compressed at he
      rw [List.head?_cons] at he
      injection he with he
      revert he
      cases oddY 0 <;> simp
  have ht : (secNonceToPubNonce sec).take 33 = compressed (mulG (setBytes (sec.take 32)).1) := by
    unfold secNonceToPubNonce
    exact List.take_left' (compressed_length _)
  have hd : (secNonceToPubNonce sec).drop 33 = compressed (mulG (setBytes (sec.drop 32)).1) := by
    unfold secNonceToPubNonce
    exact List.drop_left' (compressed_length _)
  have h0 : ∀ b : Bytes, beNat b % ord = 0 → mulG (setBytes b).1 = 0 := by
    intro b hb
    by_contra hne
    refine hne ?_
    have : (setBytes b).1 = 0 := by
      by_contra h
      exact (setBytes_ne.1 h) hb
    rw [this, mulG_eq]
    exact (zero_smul Sc G : (0 : Sc) • G = 0)
  rcases h with h | h
  · obtain ⟨P, hP⟩ := hz (·.take 33) h1 _ hm
    rw [ht, h0 _ h] at hP
    exact hno P hP
  · obtain ⟨P, hP⟩ := hz (·.drop 33) h2 _ hm
    rw [hd, h0 _ h] at hP
    exact hno P hP

/-! ### A concrete session -/

theorem natSc_ne {n : Nat} (h0 : n ≠ 0) (h : n < ord) : (n : Sc) ≠ 0 := by
  rw [ne_eq, ZMod.natCast_eq_zero_iff]
  exact fun hd => h0 (Nat.eq_zero_of_dvd_of_lt hd h)

theorem small_lt_ord {n : Nat} (h : n < 1000) : n < ord := lt_trans h (by unfold ord; norm_num)

def exSigners : List Signer := [⟨1, putBytes 1 ++ putBytes 1⟩, ⟨2, putBytes 1 ++ putBytes 1⟩]

def exOpts : SignOpts := ⟨false, true, [], none, false⟩

theorem ex_halves : beNat ((putBytes 1 ++ putBytes 1).take 32) = 1 ∧ beNat ((putBytes 1 ++ putBytes 1).drop 32) = 1 := by
  rw [List.take_left' (putBytes_length _), List.drop_left' (putBytes_length _), beNat_putBytes (by norm_num)]
  exact ⟨rfl, rfl⟩

theorem exSigners_usable : ∀ s ∈ exSigners, s.Usable := by
  have h1 : (1 : Nat) % ord ≠ 0 := by rw [Nat.mod_eq_of_lt (small_lt_ord (by norm_num))]; norm_num
  have h2 : (2 : Sc) ≠ 0 := by exact_mod_cast natSc_ne (n := 2) (by norm_num) (small_lt_ord (by norm_num))
  intro s hs
  unfold exSigners at hs
  simp only [List.mem_cons, List.not_mem_nil, or_false] at hs
  rcases hs with rfl | rfl
  · exact ⟨one_ne_zero, by rw [ex_halves.1]; exact h1, by rw [ex_halves.2]; exact h1⟩
  · exact ⟨h2, by rw [ex_halves.1]; exact h1, by rw [ex_halves.2]; exact h1⟩

theorem coef_one (encs : List Bytes) (pk : Bytes) : spec.coef oneHash encs pk = 1 := by
  unfold spec.coef
  split
  · rfl
  · exact oneHash_nat _ _

theorem sgn_cases (P : Pt) : sgn P = 1 ∨ sgn P = -1 := by unfold sgn; split <;> simp

/-- The keys of the example aggregate, to a key that is not infinity. -/
theorem ex_key : ∃ ag, aggregateKeys oneHash (exSigners.map fun s => even (mulG s.d)) exOpts.sort exOpts.tweakOpt = .ok ag ∧ ag.final ≠ 0 := by
  obtain ⟨ag, hag⟩ := (C96_tweaks oneHash (exSigners.map fun s => even (mulG s.d)) true []).2.2 ⟨by simp, by simp [spec.chain]⟩
  refine ⟨ag, hag, ?_⟩
  rw [(C97_combine_no_options oneHash _ true ag hag 0 [] []).2, C96_aggregate oneHash _ true _ ag hag _ (ordered_maybeSort _ _)]
  simp only [coef_one, one_smul]
  unfold exSigners
  simp only [List.map_cons, List.map_nil, List.sum_cons, List.sum_nil, add_zero]
  rw [← sgn_smul, ← sgn_smul, mulG_eq, mulG_eq]
  intro h
  have h' : (sgn ((1 : Sc) • G) + sgn ((2 : Sc) • G) * 2) • G = 0 := by
    rw [add_smul, mul_smul, ← h, one_smul]
  rcases smul_eq_zero.1 h' with h | h
  · have n1 : ((1 : Nat) : Sc) ≠ 0 := natSc_ne (by norm_num) (small_lt_ord (by norm_num))
    have n3 : ((3 : Nat) : Sc) ≠ 0 := natSc_ne (by norm_num) (small_lt_ord (by norm_num))
    rcases sgn_cases ((1 : Sc) • G) with e1 | e1 <;> rcases sgn_cases ((2 : Sc) • G) with e2 | e2 <;> rw [e1, e2] at h
    · exact n3 (by push_cast; linear_combination h)
    · exact n1 (by push_cast; linear_combination -h)
    · exact n1 (by push_cast; linear_combination h)
    · exact n3 (by push_cast; linear_combination -h)
  · exact G_ne_zero h

/-- The nonce of the example is 4·G. -/
theorem ex_nonce {cn : Bytes} {Q R : Pt} {msg : Bytes} (hn : aggregateNonces (exSigners.map fun s => secNonceToPubNonce s.sec) = .ok cn)
    (hR : spec.Nonce oneHash cn Q msg R) : R ≠ 0 := by
  have h := honest_nonces exSigners exSigners_usable
  rw [hn] at h
  injection h with h
  obtain ⟨R1, R2, f1, f2, rfl⟩ := hR
  rw [h, jac_take, parseJacobian_toBytes] at f1
  rw [h, jac_drop, parseJacobian_toBytes] at f2
  injection f1 with f1
  injection f2 with f2
  rw [← f1, ← f2, oneHash_nat]
  unfold exSigners setBytes
  simp only [List.map_cons, List.map_nil, List.sum_cons, List.sum_nil, ex_halves.1, ex_halves.2, add_zero]
  rw [← nat_smul]
  simp only [← add_smul, smul_smul]
  intro h0
  rcases smul_eq_zero.1 h0 with h0 | h0
  · have n4 : ((4 : Nat) : Sc) ≠ 0 := natSc_ne (by norm_num) (small_lt_ord (by norm_num))
    exact n4 (by push_cast; push_cast at h0; linear_combination h0)
  · exact G_ne_zero h0

/-- All the hypotheses of `C97_honest` are met by two signers, and their signature verifies. -/
example : ∃ ag cn R, aggregateKeys oneHash (exSigners.map fun s => even (mulG s.d)) true (.plain []) = .ok ag ∧
    aggregateNonces (exSigners.map fun s => secNonceToPubNonce s.sec) = .ok cn ∧ spec.Nonce oneHash cn ag.final (List.replicate 32 0) R ∧
    ∃ sigs : List PSig,
      List.Forall₂ (fun s q => sign oneHash s.sec s.d cn (exSigners.map fun s => even (mulG s.d)) (List.replicate 32 0) exOpts = .ok q)
        exSigners sigs ∧
      verify oneHash (combineSigs oneHash R (sigs.map PSig.S) (some ⟨List.replicate 32 0, ag.final, ag.tweakAcc⟩)) (List.replicate 32 0)
        ag.final = true := by
  obtain ⟨ag, hag, hQ⟩ := ex_key
  obtain ⟨cn, R, hn, hR, sigs, h1, h2⟩ := C97_honest oneHash exSigners exSigners_usable (List.replicate 32 0) (by simp) exOpts ag hag
  refine ⟨ag, cn, R, hag, hn, hR, sigs, h1.imp (fun _ _ h => h.1), h2 (ex_nonce hn hR) hQ ?_⟩
  unfold spec.chal
  rw [oneHash_nat]
  exact small_lt_ord (by norm_num)

end Tss.Musig2
