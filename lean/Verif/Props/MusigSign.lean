import Verif.Props.MusigKeys
/-
C97: MuSig2 partial signatures and their combination.
-/
namespace Tss.Musig2
open Tss Tss.Bip340
open Tss.Secp (E p ord G pt point_cases G_ne_zero)

namespace spec

/-- The nonce point of a session: R1 + b·R2 for the two halves of the combined nonce, b = H(MuSig/noncecoef, combined nonce ‖ x(Q) ‖ m). -/
def Nonce (th : TH) (combinedNonce : Bytes) (Q : Pt) (msg : Bytes) (R : Pt) : Prop :=
  ∃ R1 R2, parseJacobian (combinedNonce.take 33) = .ok R1 ∧ parseJacobian (combinedNonce.drop 33) = .ok R2 ∧
    R = R1 + beNat (th "MuSig/noncecoef" (combinedNonce ++ serializePubKey Q ++ msg)) • R2

/-- The BIP 340 challenge hash of a nonce point, a key and a message, before reduction. -/
def chal (th : TH) (R Q : Pt) (msg : Bytes) : Nat := beNat (th "BIP0340/challenge" (serializePubKey R ++ serializePubKey Q ++ msg))

end spec

/-- A participant's public contribution: key, public nonce, partial signature. -/
structure Part where
  key : Pt
  pub : Bytes
  S : Sc

theorem blinder_smul (th : TH) (cn : Bytes) (Q : Pt) (msg : Bytes) (P : Pt) :
    nonceBlinder th cn Q msg • P = beNat (th "MuSig/noncecoef" (cn ++ serializePubKey Q ++ msg)) • P := nat_smul _ _

theorem challengeOf_eq (th : TH) (R Q : Pt) (msg : Bytes) : challengeOf th R Q msg = (spec.chal th R Q msg : Sc) := rfl

theorem flip_smul (R X : Pt) : (if oddY R then -X else X) = sgn R • X := by
  unfold sgn; split
  · rw [neg_smul, one_smul]
  · rw [one_smul]

theorem flip_scalar (R : Pt) (k : Sc) : (if oddY R then -k else k) = sgn R * k := by
  unfold sgn; split
  · rw [neg_one_mul]
  · rw [one_mul]

/-- Verification of a partial signature as an equation. -/
theorem verifyPartial_iff (th : TH) (S : Sc) (pn cn : Bytes) (keys : List Pt) (k : Pt) (msg : Bytes) (o : SignOpts) :
    verifyPartial th S pn cn keys k msg o = .ok () ↔ k ≠ 0 ∧ ∃ ag r1 r2 n1 n2, aggregateKeys th keys o.sort o.tweakOpt = .ok ag ∧
      parseJacobian (cn.take 33) = .ok r1 ∧ parseJacobian (cn.drop 33) = .ok r2 ∧ parseJacobian (pn.take 33) = .ok n1 ∧
      parseJacobian (pn.drop 33) = .ok n2 ∧
      S • G = (challengeOf th (effNonce (r1 + nonceBlinder th cn ag.final msg • r2)) ag.final msg * cf th (maybeSort o.sort keys) k *
          (sgn ag.final * ag.parityAcc)) • even k +
        sgn (effNonce (r1 + nonceBlinder th cn ag.final msg • r2)) • (n1 + nonceBlinder th cn ag.final msg • n2) := by
  unfold verifyPartial verifyPartialSig
  simp only
  constructor
  · intro h
    split at h
    · cases h
    · cases h
    rename_i ag hag
    split at h
    · cases h
    · cases h
    rename_i r1 r2 h1 h2
    split at h
    · cases h
    · cases h
    rename_i n1 n2 h3 h4
    split at h
    · cases h
    rename_i sk hsk
    have hk : k ≠ 0 := by
      rintro rfl
      obtain ⟨e, he⟩ := parseXOnly_zero
      rw [serialize_eq, he] at hsk
      cases hsk
    rw [serialize_eq, parseXOnly_xb hk] at hsk
    injection hsk with hsk
    subst hsk
    rw [mulG_eq, mul_eq, mul_eq, mul_eq, mul_eq, coefficient_eq, parity_eq, flip_smul, smul_smul] at h
    by_cases heq : S • G = (challengeOf th (effNonce (r1 + nonceBlinder th cn ag.final msg • r2)) ag.final msg *
        (spec.coef th ((maybeSort o.sort keys).map serializePubKey) (serializePubKey (even k)) : Sc) *
          (sgn ag.final * ag.parityAcc)) • even k +
        sgn (effNonce (r1 + nonceBlinder th cn ag.final msg • r2)) • (n1 + nonceBlinder th cn ag.final msg • n2)
    · refine ⟨hk, ag, r1, r2, n1, n2, hag, h1, h2, h3, h4, ?_⟩
      rw [heq]
      unfold cf
      rw [serialize_eq (even k), xb_even, ← serialize_eq]
    · rw [if_neg heq] at h
      cases h
  · rintro ⟨hk, ag, r1, r2, n1, n2, hag, h1, h2, h3, h4, heq⟩
    rw [hag, h1, h2, h3, h4]
    simp only
    rw [serialize_eq, parseXOnly_xb hk]
    simp only
    rw [if_pos]
    rw [mulG_eq, mul_eq, mul_eq, mul_eq, mul_eq, coefficient_eq, parity_eq, flip_smul, smul_smul, heq]
    unfold cf
    rw [serialize_eq (even k), xb_even, ← serialize_eq]

theorem secNonce_parse {sec : Bytes} (h1 : (setBytes (sec.take 32)).1 ≠ 0) (h2 : (setBytes (sec.drop 32)).1 ≠ 0) :
    parseJacobian ((secNonceToPubNonce sec).take 33) = .ok ((setBytes (sec.take 32)).1 • G) ∧
    parseJacobian ((secNonceToPubNonce sec).drop 33) = .ok ((setBytes (sec.drop 32)).1 • G) := by
  unfold secNonceToPubNonce
  have ht : ∀ a b : Pt, (compressed a ++ compressed b).take 33 = compressed a := fun a b => by
    rw [List.take_append_of_le_length (by rw [compressed_length]), List.take_of_length_le (by rw [compressed_length])]
  have hd : ∀ a b : Pt, (compressed a ++ compressed b).drop 33 = compressed b := fun a b => List.drop_left' (compressed_length _)
  rw [ht, hd, parseJacobian_compressed (mulG_ne h1), parseJacobian_compressed (mulG_ne h2), mulG_eq, mulG_eq]
  exact ⟨rfl, rfl⟩

/-- What Sign computes. -/
theorem sign_spec (th : TH) (sec : Bytes) (d : Sc) (cn : Bytes) (keys : List Pt) (msg : Bytes) (o : SignOpts) (sig : PSig) :
    sign th sec d cn keys msg o = .ok sig ↔ d ≠ 0 ∧ (setBytes (sec.take 32)).1 ≠ 0 ∧ (setBytes (sec.drop 32)).1 ≠ 0 ∧
      ∃ ag r1 r2, aggregateKeys th keys o.sort o.tweakOpt = .ok ag ∧ parseJacobian (cn.take 33) = .ok r1 ∧
      parseJacobian (cn.drop 33) = .ok r2 ∧ sig.R = effNonce (r1 + nonceBlinder th cn ag.final msg • r2) ∧
      sig.S = sgn sig.R * (setBytes (sec.take 32)).1 + sgn sig.R * (setBytes (sec.drop 32)).1 * nonceBlinder th cn ag.final msg +
        challengeOf th sig.R ag.final msg * cf th (maybeSort o.sort keys) (mulG d) *
          (d * sgn ag.final * sgn (mulG d) * ag.parityAcc) := by
  unfold sign
  simp only
  cases hag : aggregateKeys th keys o.sort o.tweakOpt with
  | panic => simp
  | err e => simp
  | ok ag =>
    simp only
    cases h1 : parseJacobian (cn.take 33) with
    | error e => simp
    | ok r1 =>
      cases h2 : parseJacobian (cn.drop 33) with
      | error e => simp
      | ok r2 =>
        simp only
        by_cases hk : (setBytes (sec.take 32)).1 = 0 ∨ (setBytes (sec.drop 32)).1 = 0
        · rw [if_pos hk]
          constructor
          · intro h; cases h
          · rintro ⟨-, a, b, -⟩; rcases hk with h | h
            · exact absurd h a
            · exact absurd h b
        · rw [if_neg hk]
          push Not at hk
          by_cases hd : d = 0
          · rw [if_pos hd]
            exact ⟨fun h => (by cases h), fun h => absurd hd h.1⟩
          · rw [if_neg hd]
            rw [flip_scalar, flip_scalar, coefficient_eq, parity_eq, parity_eq, mul_eq]
            generalize hb : nonceBlinder th cn ag.final msg = b
            generalize hR : effNonce (r1 + b • r2) = R
            have hv : verifyPartial th (sgn R * (setBytes (sec.take 32)).1 + sgn R * (setBytes (sec.drop 32)).1 * b +
                challengeOf th R ag.final msg * (spec.coef th ((maybeSort o.sort keys).map serializePubKey) (serializePubKey (mulG d)) : Sc) *
                  (d * sgn ag.final * sgn (mulG d) * ag.parityAcc)) (secNonceToPubNonce sec) cn keys (mulG d) msg o = .ok () := by
              rw [verifyPartial_iff]
              obtain ⟨p1, p2⟩ := secNonce_parse hk.1 hk.2
              refine ⟨mulG_ne hd, ag, r1, r2, _, _, hag, h1, h2, p1, p2, ?_⟩
              rw [hb, hR, ← sgn_smul, mulG_eq, smul_smul, smul_smul, ← mulG_eq]
              simp only [smul_smul, ← add_smul]
              congr 1
              unfold cf
              ring
            rw [hv]
            constructor
            · intro h
              have h' : sig = ⟨sgn R * (setBytes (sec.take 32)).1 + sgn R * (setBytes (sec.drop 32)).1 * b +
                challengeOf th R ag.final msg * (spec.coef th ((maybeSort o.sort keys).map serializePubKey) (serializePubKey (mulG d)) : Sc) *
                  (d * sgn ag.final * sgn (mulG d) * ag.parityAcc), R⟩ := by
                split at h <;> (injection h with h; exact h.symm)
              refine ⟨hd, hk.1, hk.2, ag, r1, r2, rfl, rfl, rfl, ?_, ?_⟩
              · rw [h', hb, hR]
              · rw [h', hb]; rfl
            · rintro ⟨-, -, -, ag', r1', r2', e1, e2, e3, e4, e5⟩
              injection e1 with e1; subst e1
              injection e2 with e2; subst e2
              injection e3 with e3; subst e3
              rw [hb, hR] at e4
              rw [e4, hb] at e5
              have : sig = ⟨sgn R * (setBytes (sec.take 32)).1 + sgn R * (setBytes (sec.drop 32)).1 * b +
                challengeOf th R ag.final msg * (spec.coef th ((maybeSort o.sort keys).map serializePubKey) (serializePubKey (mulG d)) : Sc) *
                  (d * sgn ag.final * sgn (mulG d) * ag.parityAcc), R⟩ := by
                cases sig; simp only at e4 e5; rw [e4, e5]; rfl
              rw [this]
              split <;> rfl

/-- **C97.** `Sign` succeeds exactly when the keys aggregate, the combined nonce parses, and neither the secret nonces nor the key are
zero; the self-check that FastSign skips never fails. -/
theorem C97_sign_iff (th : TH) (sec : Bytes) (d : Sc) (cn : Bytes) (keys : List Pt) (msg : Bytes) (o : SignOpts) :
    (∃ sig, sign th sec d cn keys msg o = .ok sig) ↔ d ≠ 0 ∧ beNat (sec.take 32) % ord ≠ 0 ∧ beNat (sec.drop 32) % ord ≠ 0 ∧
      (∃ ag, aggregateKeys th keys o.sort o.tweakOpt = .ok ag) ∧ (∃ r, parseJacobian (cn.take 33) = .ok r) ∧
      ∃ r, parseJacobian (cn.drop 33) = .ok r := by
  have hz : ∀ b : Bytes, (setBytes b).1 ≠ 0 ↔ beNat b % ord ≠ 0 := by
    intro b
    unfold setBytes
    simp only
    rw [ne_eq, ZMod.natCast_eq_zero_iff, Nat.dvd_iff_mod_eq_zero]
  constructor
  · rintro ⟨sig, h⟩
    obtain ⟨h1, h2, h3, ag, r1, r2, h4, h5, h6, -⟩ := (sign_spec th sec d cn keys msg o sig).1 h
    exact ⟨h1, (hz _).1 h2, (hz _).1 h3, ⟨ag, h4⟩, ⟨r1, h5⟩, ⟨r2, h6⟩⟩
  · rintro ⟨h1, h2, h3, ⟨ag, h4⟩, ⟨r1, h5⟩, ⟨r2, h6⟩⟩
    refine ⟨⟨sgn (effNonce (r1 + nonceBlinder th cn ag.final msg • r2)) * (setBytes (sec.take 32)).1 +
        sgn (effNonce (r1 + nonceBlinder th cn ag.final msg • r2)) * (setBytes (sec.drop 32)).1 * nonceBlinder th cn ag.final msg +
        challengeOf th (effNonce (r1 + nonceBlinder th cn ag.final msg • r2)) ag.final msg * cf th (maybeSort o.sort keys) (mulG d) *
          (d * sgn ag.final * sgn (mulG d) * ag.parityAcc), effNonce (r1 + nonceBlinder th cn ag.final msg • r2)⟩, ?_⟩
    exact (sign_spec th sec d cn keys msg o _).2 ⟨h1, (hz _).2 h2, (hz _).2 h3, ag, r1, r2, h4, h5, h6, rfl, rfl⟩

/-- **C97.** A partial signature made by `Sign` verifies, for the signer's key and the public nonce of the secret nonce used, whatever the key
set, the combined nonce, the message and the options. -/
theorem C97_sign_verifies (th : TH) (sec : Bytes) (d : Sc) (cn : Bytes) (keys : List Pt) (msg : Bytes) (o : SignOpts) (sig : PSig)
    (h : sign th sec d cn keys msg o = .ok sig) :
    verifyPartial th sig.S (secNonceToPubNonce sec) cn keys (mulG d) msg o = .ok () := by
  obtain ⟨hd, hk1, hk2, ag, r1, r2, h1, h2, h3, hR, hS⟩ := (sign_spec th sec d cn keys msg o sig).1 h
  rw [verifyPartial_iff]
  obtain ⟨p1, p2⟩ := secNonce_parse hk1 hk2
  refine ⟨mulG_ne hd, ag, r1, r2, _, _, h1, h2, h3, p1, p2, ?_⟩
  rw [← hR, hS, ← sgn_smul, mulG_eq, smul_smul, smul_smul, ← mulG_eq]
  simp only [smul_smul, ← add_smul]
  congr 1
  ring

/-- **C97.** For a given key, public nonce and session there is at most one partial signature that verifies. -/
theorem C97_partial_unique (th : TH) (S S' : Sc) (pn cn : Bytes) (keys : List Pt) (k : Pt) (msg : Bytes) (o : SignOpts)
    (h : verifyPartial th S pn cn keys k msg o = .ok ()) (h' : verifyPartial th S' pn cn keys k msg o = .ok ()) : S = S' := by
  rw [verifyPartial_iff] at h h'
  obtain ⟨-, ag, r1, r2, n1, n2, a1, a2, a3, a4, a5, a6⟩ := h
  obtain ⟨-, ag', r1', r2', n1', n2', b1, b2, b3, b4, b5, b6⟩ := h'
  rw [a1] at b1; injection b1 with b1; subst b1
  rw [a2] at b2; injection b2 with b2; subst b2
  rw [a3] at b3; injection b3 with b3; subst b3
  rw [a4] at b4; injection b4 with b4; subst b4
  rw [a5] at b5; injection b5 with b5; subst b5
  exact smulG_inj (a6.trans b6.symm)

/-! ### Combination -/

theorem parseAll_ok : ∀ {l : List Bytes} {ps : List Pt}, parseAll l = .ok ps ↔ List.Forall₂ (fun b P => parseJacobian b = .ok P) l ps
  | [], ps => by
    unfold parseAll
    constructor
    · intro h; injection h with h; subst h; exact .nil
    · intro h; cases h; rfl
  | b :: l, ps => by
    unfold parseAll
    constructor
    · intro h
      split at h
      · cases h
      rename_i P hP
      split at h
      · cases h
      rename_i qs hq
      injection h with h
      subst h
      exact .cons hP (parseAll_ok.1 hq)
    · intro h
      cases h with
      | cons h1 h2 => rw [h1]; simp only; rw [parseAll_ok.2 h2]

theorem foldl_add_sum {α : Type} [AddCommMonoid α] : ∀ (l : List α) (a : α), l.foldl (· + ·) a = a + l.sum
  | [], a => by simp
  | x :: l, a => by rw [List.foldl_cons, foldl_add_sum l, List.sum_cons, add_assoc]

theorem aggregateNonces_ok {l : List Bytes} {cn : Bytes} : aggregateNonces l = .ok cn ↔ ∃ ps qs,
    List.Forall₂ (fun b P => parseJacobian b = .ok P) (l.map (·.take 33)) ps ∧
    List.Forall₂ (fun b P => parseJacobian b = .ok P) (l.map (·.drop 33)) qs ∧ cn = jacobianToBytes ps.sum ++ jacobianToBytes qs.sum := by
  unfold aggregateNonces combineNonces
  constructor
  · intro h
    split at h
    · cases h
    rename_i a ha
    split at ha
    · cases ha
    rename_i ps hps
    injection ha with ha
    split at h
    · cases h
    rename_i b hb
    split at hb
    · cases hb
    rename_i qs hqs
    injection hb with hb
    injection h with h
    refine ⟨ps, qs, parseAll_ok.1 hps, parseAll_ok.1 hqs, ?_⟩
    rw [← h, ← ha, ← hb, foldl_add_sum, foldl_add_sum, zero_add, zero_add]
  · rintro ⟨ps, qs, h1, h2, rfl⟩
    rw [parseAll_ok.2 h1, parseAll_ok.2 h2]
    simp only
    rw [foldl_add_sum, foldl_add_sum, zero_add, zero_add]

theorem jac_take (a b : Pt) : (jacobianToBytes a ++ jacobianToBytes b).take 33 = jacobianToBytes a := by
  rw [List.take_append_of_le_length (by rw [jacobianToBytes_length]), List.take_of_length_le (by rw [jacobianToBytes_length])]

theorem jac_drop (a b : Pt) : (jacobianToBytes a ++ jacobianToBytes b).drop 33 = jacobianToBytes b :=
  List.drop_left' (jacobianToBytes_length _)

/-- If all the partial signatures verify, their sum times G, with the nonces of all. -/
theorem sum_partials {th : TH} {cn : Bytes} {keys : List Pt} {msg : Bytes} {o : SignOpts} {ag : Agg} {r1 r2 : Pt}
    (hag : aggregateKeys th keys o.sort o.tweakOpt = .ok ag) (h1 : parseJacobian (cn.take 33) = .ok r1)
    (h2 : parseJacobian (cn.drop 33) = .ok r2) :
    ∀ {parts : List Part} {ps qs : List Pt}, (∀ q ∈ parts, verifyPartial th q.S q.pub cn keys q.key msg o = .ok ()) →
      List.Forall₂ (fun b P => parseJacobian b = .ok P) ((parts.map Part.pub).map (·.take 33)) ps →
      List.Forall₂ (fun b P => parseJacobian b = .ok P) ((parts.map Part.pub).map (·.drop 33)) qs →
      (parts.map Part.S).sum • G =
        (challengeOf th (effNonce (r1 + nonceBlinder th cn ag.final msg • r2)) ag.final msg * (sgn ag.final * ag.parityAcc)) •
          (parts.map fun q => cf th (maybeSort o.sort keys) q.key • even q.key).sum +
        sgn (effNonce (r1 + nonceBlinder th cn ag.final msg • r2)) • (ps.sum + nonceBlinder th cn ag.final msg • qs.sum)
  | [], ps, qs, _, hp, hq => by
    cases hp; cases hq
    simp
  | q :: parts, ps, qs, hv, hp, hq => by
    rw [List.map_cons, List.map_cons] at hp hq
    cases hp with
    | @cons _ n1 _ ps hp1 hp2 =>
    cases hq with
    | @cons _ n2 _ qs hq1 hq2 =>
    have ih := sum_partials (msg := msg) hag h1 h2 (fun q' hq' => hv q' (by simp [hq'])) hp2 hq2
    have hq0 := hv q (by simp)
    rw [verifyPartial_iff] at hq0
    obtain ⟨-, ag', r1', r2', n1', n2', b1, b2, b3, b4, b5, b6⟩ := hq0
    rw [hag] at b1; injection b1 with b1; subst b1
    rw [h1] at b2; injection b2 with b2; subst b2
    rw [h2] at b3; injection b3 with b3; subst b3
    rw [hp1] at b4; injection b4 with b4; subst b4
    rw [hq1] at b5; injection b5 with b5; subst b5
    simp only [List.map_cons, List.sum_cons]
    rw [add_smul, ih, b6]
    generalize nonceBlinder th cn ag.final msg = b
    generalize effNonce (r1 + b • r2) = R
    generalize challengeOf th R ag.final msg = e
    generalize cf th (maybeSort o.sort keys) q.key = c
    generalize even q.key = K
    generalize sgn R = s
    generalize (sgn ag.final * ag.parityAcc) = t
    simp only [smul_add, smul_smul]
    rw [show e * c * t = e * t * c by ring]
    abel

theorem combine_some (th : TH) (R : Pt) (ss : List Sc) (msg : Bytes) (Q : Pt) (t : Sc) :
    combineSigs th R ss (some ⟨msg, Q, t⟩) = ⟨xOf R, ss.sum + challengeOf th R Q msg * t * sgn Q⟩ := by
  unfold combineSigs
  simp only
  rw [parity_eq, foldl_add_sum, zero_add]

theorem combine_none (th : TH) (R : Pt) (ss : List Sc) : combineSigs th R ss none = ⟨xOf R, ss.sum⟩ := by
  unfold combineSigs
  simp only
  rw [foldl_add_sum, zero_add]

theorem applyTweaks_parity : ∀ {ts : List Tweak} {Q : Pt} {g a : Sc} {r : Pt × Sc × Sc}, applyTweaks ts (Q, g, a) = .ok r →
    g * g = 1 → r.2.1 * r.2.1 = 1
  | [], Q, g, a, r, h, hg => by
    unfold applyTweaks at h
    injection h with h
    subst h
    exact hg
  | t :: ts, Q, g, a, r, h, hg => by
    unfold applyTweaks at h
    split at h
    · cases h
    · rename_i r' hr
      rw [tweakKey_ok] at hr
      obtain ⟨h1, h2, rfl⟩ := hr
      refine applyTweaks_parity h ?_
      have : (if t.xOnly = true then sgn Q else (1 : Sc)) * (if t.xOnly = true then sgn Q else (1 : Sc)) = 1 := by
        split
        · exact sgn_sq Q
        · exact one_mul 1
      generalize (if t.xOnly = true then sgn Q else (1 : Sc)) = s at this
      rw [mul_mul_mul_comm, hg, this, one_mul]

theorem parityAcc_sq {th : TH} {keys : List Pt} {sort : Bool} {opt : TweakOpt} {ag : Agg} (h : aggregateKeys th keys sort opt = .ok ag) :
    ag.parityAcc * ag.parityAcc = 1 := by
  obtain ⟨-, ts, -, h⟩ := agg_pre h
  exact applyTweaks_parity h (one_mul 1)

theorem final_verify_iff (th : TH) (R Q : Pt) (s : Sc) (msg : Bytes) (hm : msg.length = 32) (hR : R ≠ 0) (hQ : Q ≠ 0)
    (hc : spec.chal th R Q msg < ord) :
    verify th ⟨xOf R, s⟩ msg Q = true ↔ s • G = even R + challengeOf th R Q msg • even Q := by
  have hch : challenge th (xOf R) (xb Q) msg = (challengeOf th R Q msg, false) := by
    unfold challenge challengeOf setBytes
    rw [serialize_eq, serialize_eq]
    refine Prod.ext rfl ?_
    unfold spec.chal at hc
    rw [serialize_eq, serialize_eq] at hc
    exact decide_eq_false (not_le.2 hc)
  rw [verify_true, schnorrVerify_iff]
  constructor
  · rintro ⟨-, P, R', hL, hR', ho', hx', -, he⟩
    have hP : P = even Q := lift_unique hL ((lift_iff _ _).2 ⟨even_ne hQ, oddY_even _, (xb_even _).symm⟩)
    have hRR : R' = even R := ext_of hR' (even_ne hR) (by rw [hx', xOf_even]) (by rw [ho', oddY_even])
    rw [hP, hRR, hch] at he
    exact he
  · intro he
    exact ⟨hm, even Q, even R, (lift_iff _ _).2 ⟨even_ne hQ, oddY_even _, (xb_even _).symm⟩, even_ne hR, oddY_even _, xOf_even _,
      by rw [hch], by rw [hch]; exact he⟩

/-- **C97.** When every participant's partial signature verifies, the combination verifies under the aggregated (and tweaked) key exactly when
the keys of odd y cancel: challenge times the sum of coefficient·(even-y form − key) is the neutral element. -/
theorem C97_combine_iff (th : TH) (parts : List Part) (msg cn : Bytes) (o : SignOpts) (ag : Agg) (R : Pt) (encs : List Bytes)
    (hm : msg.length = 32) (hn : aggregateNonces (parts.map Part.pub) = .ok cn)
    (hag : aggregateKeys th (parts.map Part.key) o.sort o.tweakOpt = .ok ag) (he : spec.Ordered o.sort (parts.map Part.key) encs)
    (hR : spec.Nonce th cn ag.final msg R) (hR0 : R ≠ 0) (hQ : ag.final ≠ 0) (hc : spec.chal th R ag.final msg < ord)
    (hv : ∀ q ∈ parts, verifyPartial th q.S q.pub cn (parts.map Part.key) q.key msg o = .ok ()) :
    verify th (combineSigs th R (parts.map Part.S) (some ⟨msg, ag.final, ag.tweakAcc⟩)) msg ag.final = true ↔
      spec.chal th R ag.final msg • (parts.map fun q => spec.coef th encs (serializePubKey q.key) • (even q.key - q.key)).sum = 0 := by
  obtain ⟨ps, qs, h1, h2, hcn⟩ := aggregateNonces_ok.1 hn
  have e1 : parseJacobian (cn.take 33) = .ok ps.sum := by rw [hcn, jac_take]; exact parseJacobian_toBytes _
  have e2 : parseJacobian (cn.drop 33) = .ok qs.sum := by rw [hcn, jac_drop]; exact parseJacobian_toBytes _
  obtain ⟨R1, R2, f1, f2, rfl⟩ := hR
  rw [e1] at f1; injection f1 with f1; subst f1
  rw [e2] at f2; injection f2 with f2; subst f2
  have hsum := sum_partials hag e1 e2 hv h1 h2
  rw [← blinder_smul] at hR0 hc ⊢
  generalize nonceBlinder th cn ag.final msg = b at *
  generalize hRR : ps.sum + b • qs.sum = R at *
  have heff : effNonce R = R := by unfold effNonce; rw [if_neg hR0]
  rw [heff] at hsum
  rw [combine_some, final_verify_iff th R ag.final _ msg hm hR0 hQ hc]
  rw [sgn_smul] at hsum
  have hord := ordered_unique (ordered_maybeSort o.sort (parts.map Part.key)) he (Or.inl rfl)
  have hcf : ∀ k, cf th (maybeSort o.sort (parts.map Part.key)) k = (spec.coef th encs (serializePubKey k) : Sc) := by
    intro k; unfold cf; rw [hord]
  have hpre : ag.pre = (parts.map fun q => (spec.coef th encs (serializePubKey q.key) : Sc) • q.key).sum := by
    rw [C96_aggregate th _ _ _ ag hag encs he, List.map_map]
    congr 1
    apply List.map_congr_left
    intro q _
    exact (nat_smul _ _).symm
  have hfin := agg_eq hag
  have hev : even ag.final = sgn ag.final • (ag.parityAcc • ag.pre + ag.tweakAcc • G) := by rw [← hfin, sgn_smul]
  have hsplit : (parts.map fun q => cf th (maybeSort o.sort (parts.map Part.key)) q.key • even q.key).sum =
      ag.pre + (parts.map fun q => spec.coef th encs (serializePubKey q.key) • (even q.key - q.key)).sum := by
    rw [hpre]
    simp only [hcf]
    clear hv h1 h2 hsum hn hag he hord hpre hfin hev hcf
    induction parts with
    | nil => simp
    | cons q parts ih =>
      simp only [List.map_cons, List.sum_cons]
      rw [ih, ← nat_smul _ (even q.key - q.key), smul_sub (((spec.coef th encs (serializePubKey q.key) : Nat)) : Sc)]
      abel
  have hg2 := parityAcc_sq hag
  generalize (parts.map fun q => spec.coef th encs (serializePubKey q.key) • (even q.key - q.key)).sum = D at *
  rw [hsplit] at hsum
  rw [add_smul, hsum, hev, ← nat_smul (spec.chal th R ag.final msg), ← challengeOf_eq]
  generalize challengeOf th R ag.final msg = e
  generalize ag.pre = P
  generalize ag.parityAcc = g at *
  have hs2 := sgn_sq ag.final
  generalize sgn ag.final = s at *
  generalize ag.tweakAcc = t
  constructor
  · intro h
    have h' : (e * (s * g)) • D = 0 := by
      have : (e * (s * g)) • (P + D) + even R + (e * t * s) • G = even R + e • s • (g • P + t • G) + (e * (s * g)) • D := by
        simp only [smul_add, smul_smul]
        rw [show e * (s * t) = e * t * s by ring]
        abel
      rw [this] at h
      exact add_eq_left.1 h
    have : (s * g) • (e * (s * g)) • D = 0 := by rw [h', smul_zero]
    rw [smul_smul, show s * g * (e * (s * g)) = (s * s) * (g * g) * e by ring, hs2, hg2, one_mul, one_mul] at this
    exact this
  · intro h
    have h' : (e * (s * g)) • D = 0 := by rw [mul_comm, mul_smul, h]; exact (smul_zero (s * g) : (s * g) • (0 : Pt) = 0)
    rw [smul_add (e * (s * g)), h']
    simp only [smul_add, smul_smul]
    rw [show e * (s * t) = e * t * s by ring]
    abel

theorem even_self {k : Pt} (h : oddY k = false) : even k = k := by unfold even; rw [h]; rfl

theorem even_of_odd {k : Pt} (h : oddY k = true) : even k = -k := by unfold even; rw [h]; rfl

/-- **C97.** When all the keys have even y (as keys parsed from their 32-byte encodings do) and every partial signature verifies, the
combination is a valid signature under the aggregated, tweaked key. -/
theorem C97_combine (th : TH) (parts : List Part) (msg cn : Bytes) (o : SignOpts) (ag : Agg) (R : Pt)
    (hm : msg.length = 32) (hn : aggregateNonces (parts.map Part.pub) = .ok cn)
    (hag : aggregateKeys th (parts.map Part.key) o.sort o.tweakOpt = .ok ag) (hev : ∀ q ∈ parts, oddY q.key = false)
    (hR : spec.Nonce th cn ag.final msg R) (hR0 : R ≠ 0) (hQ : ag.final ≠ 0) (hc : spec.chal th R ag.final msg < ord)
    (hv : ∀ q ∈ parts, verifyPartial th q.S q.pub cn (parts.map Part.key) q.key msg o = .ok ()) :
    verify th (combineSigs th R (parts.map Part.S) (some ⟨msg, ag.final, ag.tweakAcc⟩)) msg ag.final = true := by
  rw [C97_combine_iff th parts msg cn o ag R _ hm hn hag (ordered_maybeSort _ _) hR hR0 hQ hc hv]
  generalize (maybeSort o.sort (parts.map Part.key)).map serializePubKey = encs
  have : ∀ (l : List Part), (∀ q ∈ l, oddY q.key = false) →
      (l.map fun q => spec.coef th encs (serializePubKey q.key) • (even q.key - q.key)).sum = 0 := by
    intro l
    induction l with
    | nil => intro _; rfl
    | cons q l ih =>
      intro h
      rw [List.map_cons, List.sum_cons, ih (fun q' hq' => h q' (by simp [hq'])), even_self (h q (by simp)), sub_self, smul_zero, add_zero]
  rw [this parts hev]
  exact nsmul_zero _

/-- **C97.** A failed combination names a culprit: with keys of even y, if the combination does not verify then some partial signature
does not either. -/
theorem C97_blame (th : TH) (parts : List Part) (msg cn : Bytes) (o : SignOpts) (ag : Agg) (R : Pt)
    (hm : msg.length = 32) (hn : aggregateNonces (parts.map Part.pub) = .ok cn)
    (hag : aggregateKeys th (parts.map Part.key) o.sort o.tweakOpt = .ok ag) (hev : ∀ q ∈ parts, oddY q.key = false)
    (hR : spec.Nonce th cn ag.final msg R) (hR0 : R ≠ 0) (hQ : ag.final ≠ 0) (hc : spec.chal th R ag.final msg < ord)
    (hbad : verify th (combineSigs th R (parts.map Part.S) (some ⟨msg, ag.final, ag.tweakAcc⟩)) msg ag.final = false) :
    ∃ q ∈ parts, verifyPartial th q.S q.pub cn (parts.map Part.key) q.key msg o ≠ .ok () := by
  by_contra h
  push Not at h
  rw [C97_combine th parts msg cn o ag R hm hn hag hev hR hR0 hQ hc h] at hbad
  cases hbad

/-- **C97.** But one key of odd y in the set breaks the session: every partial signature verifies, and the combination does not
(unless its coefficient or the challenge is zero). -/
theorem C97_odd_key_breaks (th : TH) (before after : List Part) (bad : Part) (msg cn : Bytes) (o : SignOpts) (ag : Agg) (R : Pt)
    (encs : List Bytes) (hm : msg.length = 32) (hn : aggregateNonces ((before ++ bad :: after).map Part.pub) = .ok cn)
    (hag : aggregateKeys th ((before ++ bad :: after).map Part.key) o.sort o.tweakOpt = .ok ag)
    (he : spec.Ordered o.sort ((before ++ bad :: after).map Part.key) encs)
    (hb : ∀ q ∈ before, oddY q.key = false) (ha : ∀ q ∈ after, oddY q.key = false) (hbad : oddY bad.key = true)
    (hR : spec.Nonce th cn ag.final msg R) (hR0 : R ≠ 0) (hQ : ag.final ≠ 0) (hc : spec.chal th R ag.final msg < ord)
    (hc0 : spec.chal th R ag.final msg ≠ 0) (hcf : spec.coef th encs (serializePubKey bad.key) % ord ≠ 0)
    (hv : ∀ q ∈ before ++ bad :: after, verifyPartial th q.S q.pub cn ((before ++ bad :: after).map Part.key) q.key msg o = .ok ()) :
    verify th (combineSigs th R ((before ++ bad :: after).map Part.S) (some ⟨msg, ag.final, ag.tweakAcc⟩)) msg ag.final = false := by
  rw [← Bool.not_eq_true, C97_combine_iff th _ msg cn o ag R encs hm hn hag he hR hR0 hQ hc hv]
  have hz : ∀ (l : List Part), (∀ q ∈ l, oddY q.key = false) →
      (l.map fun q => spec.coef th encs (serializePubKey q.key) • (even q.key - q.key)).sum = 0 := by
    intro l
    induction l with
    | nil => intro _; rfl
    | cons q l ih =>
      intro h
      rw [List.map_cons, List.sum_cons, ih (fun q' hq' => h q' (by simp [hq'])), even_self (h q (by simp)), sub_self, smul_zero, add_zero]
  rw [List.map_append, List.sum_append, List.map_cons, List.sum_cons, hz _ hb, hz _ ha, zero_add, add_zero]
  have hk0 : bad.key ≠ 0 := by
    have := hv bad (by simp)
    rw [verifyPartial_iff] at this
    exact this.1
  rw [even_of_odd hbad]
  generalize spec.coef th encs (serializePubKey bad.key) = c at *
  generalize spec.chal th R ag.final msg = e at *
  generalize bad.key = K at *
  intro h
  rw [← nat_smul, ← nat_smul, show (-K - K : Pt) = (-2 : Sc) • K by rw [neg_smul, two_smul]; abel, smul_smul, smul_smul] at h
  rcases smul_eq_zero.1 h with h | h
  · rcases mul_eq_zero.1 h with h | h
    · rcases mul_eq_zero.1 h with h | h
      · rw [ZMod.natCast_eq_zero_iff] at h
        exact hc0 (Nat.eq_zero_of_dvd_of_lt h hc)
      · rw [ZMod.natCast_eq_zero_iff] at h
        exact hcf (Nat.dvd_iff_mod_eq_zero.1 h)
    · have h2 : ((2 : Nat) : Sc) = 0 := by
        have := neg_eq_zero.1 h
        exact_mod_cast this
      rw [ZMod.natCast_eq_zero_iff] at h2
      exact absurd (Nat.le_of_dvd (by norm_num) h2) (by unfold ord; norm_num)
  · exact hk0 h

/-- **C97.** Without tweaks CombineSigs needs no options. -/
theorem C97_combine_no_options (th : TH) (keys : List Pt) (sort : Bool) (ag : Agg) (h : aggregateKeys th keys sort (.plain []) = .ok ag)
    (R : Pt) (ss : List Sc) (msg : Bytes) :
    combineSigs th R ss none = combineSigs th R ss (some ⟨msg, ag.final, ag.tweakAcc⟩) ∧ ag.final = ag.pre := by
  obtain ⟨-, ts, h1, h2⟩ := agg_pre h
  injection h1 with h1
  subst h1
  unfold applyTweaks at h2
  injection h2 with h2
  have e1 : ag.pre = ag.final := (Prod.ext_iff.1 h2).1
  have e2 : (0 : Sc) = ag.tweakAcc := (Prod.ext_iff.1 (Prod.ext_iff.1 h2).2).2
  refine ⟨?_, e1.symm⟩
  rw [combine_some, combine_none, ← e2, mul_zero, zero_mul, add_zero]

/-- **C97.** Nonces that cancel: when the session nonce is the point at infinity, Sign goes on with the generator instead, every partial
signature verifies, and the combination never does. -/
theorem C97_cancelling_nonces (th : TH) (parts : List Part) (msg cn : Bytes) (o : SignOpts) (ag : Agg)
    (hm : msg.length = 32) (hn : aggregateNonces (parts.map Part.pub) = .ok cn)
    (hag : aggregateKeys th (parts.map Part.key) o.sort o.tweakOpt = .ok ag) (hev : ∀ q ∈ parts, oddY q.key = false)
    (hR : spec.Nonce th cn ag.final msg 0)
    (hv : ∀ q ∈ parts, verifyPartial th q.S q.pub cn (parts.map Part.key) q.key msg o = .ok ()) :
    verify th (combineSigs th G (parts.map Part.S) (some ⟨msg, ag.final, ag.tweakAcc⟩)) msg ag.final = false := by
  rw [← Bool.not_eq_true]
  intro hver
  have hQ : ag.final ≠ 0 := by
    intro h0
    rw [h0, C94_verify_infinity] at hver
    cases hver
  have hc : spec.chal th G ag.final msg < ord := by
    rw [combine_some, verify_true, schnorrVerify_iff] at hver
    obtain ⟨-, P, R', -, -, -, -, hlt, -⟩ := hver
    unfold challenge setBytes at hlt
    simp only [decide_eq_false_iff_not, not_le] at hlt
    unfold spec.chal
    rw [serialize_eq, serialize_eq]
    exact hlt
  obtain ⟨ps, qs, h1, h2, hcn⟩ := aggregateNonces_ok.1 hn
  have e1 : parseJacobian (cn.take 33) = .ok ps.sum := by rw [hcn, jac_take]; exact parseJacobian_toBytes _
  have e2 : parseJacobian (cn.drop 33) = .ok qs.sum := by rw [hcn, jac_drop]; exact parseJacobian_toBytes _
  obtain ⟨R1, R2, f1, f2, f3⟩ := hR
  rw [e1] at f1; injection f1 with f1; subst f1
  rw [e2] at f2; injection f2 with f2; subst f2
  have hsum := sum_partials hag e1 e2 hv h1 h2
  rw [← blinder_smul] at f3
  rw [← f3, smul_zero, add_zero] at hsum
  have heff : effNonce 0 = G := by unfold effNonce; rw [if_pos rfl]
  rw [heff] at hsum
  rw [combine_some, final_verify_iff th G ag.final _ msg hm G_ne_zero hQ hc, add_smul, hsum] at hver
  have hpre : (parts.map fun q => cf th (maybeSort o.sort (parts.map Part.key)) q.key • even q.key).sum = ag.pre := by
    rw [(agg_pre hag).1, sumKeys_eq, ((maybeSort_perm o.sort (parts.map Part.key)).map _).sum_eq, List.map_map]
    congr 1
    apply List.map_congr_left
    intro q hq
    simp only [Function.comp]
    rw [even_self (hev q hq)]
  rw [hpre, ← sgn_smul ag.final] at hver
  have hfin := agg_eq hag
  have hG := even_ne G_ne_zero
  generalize challengeOf th G ag.final msg = e at *
  generalize sgn ag.final = s at *
  generalize ag.pre = P at *
  generalize ag.parityAcc = g at *
  generalize ag.tweakAcc = t at *
  apply hG
  have : (e * (s * g)) • P + (e * t * s) • G = e • s • (g • P + t • G) := by
    simp only [smul_add, smul_smul]
    rw [show e * (s * t) = e * t * s by ring]
  rw [this, hfin] at hver
  exact (add_eq_right.1 hver.symm)

/-- **C97.** The options of CombineSigs drop the error of AggregateKeys: with a bad tweak they panic. -/
theorem C97_combine_option_panics (th : TH) (msg : Bytes) (keys : List Pt) (sort : Bool) (opt : TweakOpt) :
    withCombine th msg keys sort opt = .panic ↔ ¬ ∃ ag, aggregateKeys th keys sort opt = .ok ag := by
  unfold withCombine
  cases aggregateKeys th keys sort opt <;> simp

/-- **C97.** A partial signature survives encoding and decoding; a scalar at or above the order is an error; an input that is too
short is decoded, without an error, to zero. -/
theorem C97_decode (q : PSig) (b : Bytes) :
    decodeS q.encode = (q.S, false) ∧ (32 ≤ b.length → ((decodeS b).2 = true ↔ ord ≤ beNat (b.take 32))) ∧
    (b.length < 32 → decodeS b = (0, false)) := by
  refine ⟨?_, ?_, ?_⟩
  · unfold decodeS PSig.encode
    rw [putBytes_length, if_neg (lt_irrefl _), List.take_of_length_le (by rw [putBytes_length])]
    have hlt : q.S.val < ord := ZMod.val_lt _
    unfold setBytes
    rw [beNat_putBytes (lt_trans hlt (by unfold ord; norm_num))]
    exact Prod.ext (ZMod.natCast_zmod_val _) (decide_eq_false (not_le.2 hlt))
  · intro h
    unfold decodeS
    rw [if_neg (by omega)]
    unfold setBytes
    simp
  · intro h
    unfold decodeS
    rw [if_pos h]

end Tss.Musig2
