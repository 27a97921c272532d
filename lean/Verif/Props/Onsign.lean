import Verif.Lemmas.OnsignFinal
/-
Signing: accept and finish calls, verification of peers, the released signature (properties C51-C54, C56).
-/
namespace Tss.Onsign
open Tss Text Wire RangeProofs
open _root_.Tss.Keygen (forJ)

/-! ### Specification -/
namespace spec

/-- RFC 8032 section 5.1.3: the 32-byte string `pub` decodes to the point `A`. -/
def Decodes (pub : Bytes) (A : Ed.Point) : Prop :=
  pub.length = 32 ∧ A.y = ((leNat pub % 2 ^ 255 : Nat) : Ed.F) ∧
    (A.x ≠ 0 → (A.x.val % 2 = 1 ↔ (pub.getD 31 0).toNat / 128 = 1))

/-- RFC 8032 section 5.1.7 (without cofactor): `sig` is a signature of `msg` under the public key `pub`: 64 bytes, the
second half a scalar below 2^253, the first half the encoding of `s B - H(R, A, M) A`. -/
def Verifies (sha512 : Bytes → Bytes) (pub msg sig : Bytes) : Prop :=
  sig.length = 64 ∧ ∃ A, Decodes pub A ∧ leNat (sig.drop 32) < 2 ^ 253 ∧
    sig.take 32 = Ed.encode (leNat (sig.drop 32) • Ed.B - (leNat (sha512 (sig.take 32 ++ pub ++ msg)) % Ed.ord) • A)

end spec

/-- The verification used by the final call is sound for the RFC equation. -/
theorem edVerify_sound {sha512 : Bytes → Bytes} {pub msg R S : Bytes} (hp : pub.length = 32) (hR : R.length = 32)
    (hS : S.length = 32) (h : Ed.edVerify sha512 pub msg (R ++ S) = true) : spec.Verifies sha512 pub msg (R ++ S) := by
  have htake : (R ++ S).take 32 = R := by rw [← hR, List.take_left']; rfl
  have hdrop : (R ++ S).drop 32 = S := by rw [← hR, List.drop_left']; rfl
  refine ⟨by simp [hR, hS], ?_⟩
  rw [htake, hdrop]
  cases he : Ed.fromBytes pub with
  | none =>
    unfold Ed.edVerify at h
    simp only [he] at h
    split at h <;> simp at h
  | some e =>
    obtain ⟨A, hrep, hy, hx⟩ := Ed.fromBytes_sound he
    have := (Ed.edVerify_of sha512 pub A e he hrep msg R S hR hS).mp h
    exact ⟨A, ⟨hp, by rw [hy]; rfl, hx⟩, this.1, this.2⟩

/-- C54. If the final signing call returns Ok – whatever shares the peers sent, whatever calls were made before – the
returned record holds a 64-byte signature that verifies under the party's group key for the message it holds, with a
reduced scalar; the record's R, S and M fields are those of the signature. -/
theorem C54_released_signature_verifies {e : Env} {r r' : Reg} {key out : Bytes} (hr : Reach e r)
    (h : OnsignFinalExec e r key = (.ok out, r')) :
    ∃ p A sd, r key = some p ∧ p.keys.eddsaPub = some A ∧ e.jsonSig sd = some out ∧
      spec.Verifies e.sha512 (Ed.ecPointToEncodedBytes A.x A.y) (intBytes p.m) sd.signature ∧
      leNat (sd.signature.drop 32) < Ed.ord ∧ sd.m = intBytes p.m ∧
      sd.r = intBytes (leNat (sd.signature.take 32)) ∧ sd.s = intBytes (leNat (sd.signature.drop 32)) := by
  unfold OnsignFinalExec at h
  cases hk : r key with
  | none => rw [withParty_none _ _ hk] at h; simp at h
  | some p =>
    rw [withParty_some _ _ hk, Prod.mk.injEq] at h
    obtain ⟨h1, -⟩ := h
    have hinv := reach_inv hr key p hk
    obtain ⟨s0, rr, A, h2, h3, h4, -, h6, h7, -⟩ := (finalExec_ok_iff e p out (finalExec e p).2).mp (by rw [← h1])
    obtain ⟨s1, s2⟩ := sumOf_spec p (List.range p.ids.length) s0 (hinv.si s0 h2)
    obtain ⟨r1, r2⟩ := hinv.r rr h3
    have hrl : rr.natAbs < 2 ^ 256 := by
      have h2' : ((rr.natAbs : Nat) : Int) < ((2 ^ 256 : Nat) : Int) := by
        rw [Int.natCast_natAbs, abs_of_nonneg r1]; exact_mod_cast r2
      exact_mod_cast h2'
    have hR := Ed.bigIntToEncodedBytes_length (some rr)
    have hRn := Ed.leNat_bigIntToEncodedBytes hrl
    refine ⟨p, A, sigOf p rr s0, rfl, h4, h7, ?_, ?_, rfl, ?_, ?_⟩
    · unfold Ed.edwardsVerify at h6
      rw [encodedBytes_roundtrip _ s1] at h6
      exact edVerify_sound (Ed.ecPointToEncodedBytes_length _ _) hR s1 h6
    · simp only [sigOf]
      rw [← hR, List.drop_left']
      · exact s2
      · rfl
    · simp only [sigOf]
      rw [List.take_left' hR, hRn, Int.natCast_natAbs, abs_of_nonneg r1]
    · simp only [sigOf]
      rw [List.drop_left' hR, (encodedBytes_range _ s1).2.2]

/-- C54. From the first round on, that group key is the sum of the public shares the party holds (in canonical
coordinates), so the signature verifies under the standard encoding of the sum of the shares. -/
theorem C54_group_key_is_sum {e : Env} {r : Reg} {key : Bytes} {p : Party} (hr : Reach e r) (h : r key = some p)
    (hk : p.k ≠ none) : ∃ gs : List Ed.Point, p.keys.pubXj = gs.map (fun g => some (Ed.lawful.pt g)) ∧
      ∃ A, p.keys.eddsaPub = some A ∧ A = Ed.lawful.pt gs.sum ∧
        Ed.ecPointToEncodedBytes A.x A.y = Ed.encode gs.sum := by
  obtain ⟨gs, h1, h2⟩ := (reach_inv hr key p h).agg hk
  exact ⟨gs, h1, _, h2, rfl, Ed.ecPointToEncodedBytes_coords gs.sum⟩

/-- C54. A signature that does not verify is never released: the call reports an error. -/
theorem C54_bad_signature_refused {e : Env} {r : Reg} {key : Bytes} {p : Party} {A : ECPoint} (hr : Reach e r)
    (hk : r key = some p) (hA : p.keys.eddsaPub = some A) (s0 : Bytes) (rr : Int) (h0 : p.si = some s0) (h1 : p.r = some rr)
    (hbad : ¬ spec.Verifies e.sha512 (Ed.ecPointToEncodedBytes A.x A.y) (intBytes p.m)
      (Ed.bigIntToEncodedBytes (some rr) ++ sumOf p (List.range p.ids.length) s0)) :
    ∀ out, (OnsignFinalExec e r key).1 ≠ .ok out := by
  intro out hout
  obtain ⟨s1, s2⟩ := sumOf_spec p (List.range p.ids.length) s0 ((reach_inv hr key p hk).si s0 h0)
  unfold OnsignFinalExec at hout
  rw [withParty_some _ _ hk] at hout
  obtain ⟨s0', rr', A', h2, h3, h4, -, h6, -⟩ := (finalExec_ok_iff e p out (finalExec e p).2).mp (by rw [← hout])
  rw [h0] at h2; cases h2
  rw [h1] at h3; cases h3
  rw [hA] at h4; cases h4
  unfold Ed.edwardsVerify at h6
  rw [encodedBytes_roundtrip _ s1] at h6
  exact hbad (edVerify_sound (Ed.ecPointToEncodedBytes_length _ _) (Ed.bigIntToEncodedBytes_length _) s1 h6)

/-! ### C53 -/

/-- C53. A successful second round has verified, for every peer, the encryption proof that peer sent, against the
peer's index, ciphertext and Paillier key and the own ring-Pedersen parameters, and has recorded that ciphertext. -/
theorem C53_round2_verified {e : Env} {draws : Nat → Draws} {r r' : Reg} {key : Bytes} (hr : Reach e r)
    (h : OnsignRound2Exec e draws r key = (.ok (), r')) :
    ∃ p p', r key = some p ∧ r' key = some p' ∧ ∀ j, j < p.ids.length → j ≠ p.index →
      ∃ K proof m n ped, parseWireMsg (p.m11.getD j []) = some (.sg1a K) ∧
        parseWireMsg (p.m12.getD j []) = some (.sg1b proof) ∧ encUnmarshal proof = some m ∧
        p.keys.paillierPKs.getD j none = some n ∧ p.keys.ringPedersenPKs.getD p.index none = some ped ∧
        m.verify e.Hb proofParameter (p.ssid ++ intBytes (j : Int)) (beNat K) n ped = .ok () ∧
        p'.kc.getD j none = some (beNat K : Int) := by
  unfold OnsignRound2Exec at h
  cases hk : r key with
  | none => rw [withParty_none _ _ hk] at h; simp at h
  | some p =>
    have hinv := reach_inv hr key p hk
    rw [withParty_some _ _ hk, Prod.mk.injEq] at h
    obtain ⟨h1, h2⟩ := h
    refine ⟨p, (r2Exec e draws p).2, rfl, by rw [← h2, set_same], ?_⟩
    obtain ⟨p2, k, G, Ri, rho, K, n, g1, -, -, -, -, -, -, g8⟩ :=
      (r2Exec_ok_iff e draws p (r2Exec e draws p).2).mp (by rw [← h1])
    obtain ⟨g9, g10⟩ := (r2Loop_ok_iff _ _ _ _).mp g1
    have hkc : (r2Exec e draws p).2.kc = p2.kc := by
      have := Keygen.forJ_inv (fun q : Party => q.kc = p2.kc) (step := r2Prove e draws k rho K n Ri G)
        (fun s j hs => by
          obtain ⟨a, b, hab⟩ := r2Prove_shape e draws k rho K n Ri G s j
          rw [hab]; exact hs) (List.range p2.ids.length) p2 rfl
      rwa [g8] at this
    intro j hj hji
    obtain ⟨bK, m, proof, nj, ped, a1, a2, a3, a4, a5, a6⟩ := g9 j (by rw [List.mem_range, hinv.l11]; exact hj) hji
    refine ⟨bK, proof, m, nj, ped, a1, a2, a3, a4, a5, a6, ?_⟩
    obtain ⟨kc, f1, f2, f3⟩ := r2fold (List.range p.m11.length) (resetOK { p with number := 2 })
    rw [hkc, g10, f1]
    simp only
    rw [f3 j, if_pos ⟨by rw [List.mem_range, hinv.l11]; exact hj, hji, by change j < p.kc.length; rw [hinv.lkc]; exact hj⟩]
    have a1' : parseWireMsg ((resetOK { p with number := 2 }).m11.getD j []) = some (.sg1a bK) := a1
    unfold kcOf
    rw [a1']

theorem r2Verify_bad {e : Env} {p : Party} {j : Nat} (hji : j ≠ p.index)
    {K proof : Bytes} {m : EncMsg} {n : Int} {ped : Ped} {er : VErr}
    (h1 : parseWireMsg (p.m11.getD j []) = some (.sg1a K)) (h2 : parseWireMsg (p.m12.getD j []) = some (.sg1b proof))
    (h3 : encUnmarshal proof = some m) (h4 : p.keys.paillierPKs.getD j none = some n)
    (h5 : p.keys.ringPedersenPKs.getD p.index none = some ped)
    (h6 : m.verify e.Hb proofParameter (p.ssid ++ intBytes (j : Int)) (beNat K) n ped = .err er) :
    (r2Verify e p j).1 = .err (.verifyEnc j) := by
  unfold r2Verify
  rw [if_neg hji, h1]
  simp only
  rw [h2]
  simp only
  rw [h3]
  simp only
  rw [h4, h5]
  simp only
  rw [show context p.ssid j = p.ssid ++ intBytes (j : Int) from rfl, h6]

/-- C53. If a peer's encryption proof does not verify (and those of the peers before it do), the second round fails
and names that peer. -/
theorem C53_round2_names_peer {e : Env} {draws : Nat → Draws} {r : Reg} {key : Bytes} {p : Party} (hr : Reach e r)
    (hk : r key = some p) (j : Nat) (hj : j < p.ids.length) (hji : j ≠ p.index)
    (hpre : ∀ i, i < j → i ≠ p.index → ∃ K m, Good2 e p i K m)
    {K proof : Bytes} {m : EncMsg} {n : Int} {ped : Ped} {er : VErr}
    (h1 : parseWireMsg (p.m11.getD j []) = some (.sg1a K)) (h2 : parseWireMsg (p.m12.getD j []) = some (.sg1b proof))
    (h3 : encUnmarshal proof = some m) (h4 : p.keys.paillierPKs.getD j none = some n)
    (h5 : p.keys.ringPedersenPKs.getD p.index none = some ped)
    (h6 : m.verify e.Hb proofParameter (p.ssid ++ intBytes (j : Int)) (beNat K) n ped = .err er) :
    (OnsignRound2Exec e draws r key).1 = .err (.verifyEnc j) ∧
      (Err.verifyEnc j).text = ascii "verify enc proof failed, party: " ++ itoa j := by
  refine ⟨?_, rfl⟩
  have hinv := reach_inv hr key p hk
  unfold OnsignRound2Exec
  rw [withParty_some _ _ hk]
  unfold r2Exec
  simp only
  have e1 : (resetOK { p with number := 2 }).m11.length = p.m11.length := rfl
  rw [e1, hinv.l11]
  obtain ⟨t, ht⟩ := range_split hj
  have hl := (r2Loop_ok_iff e (List.range j) (resetOK { p with number := 2 }) _).mpr
    ⟨fun i hi => hpre i (List.mem_range.mp hi), rfl⟩
  obtain ⟨kc, f1, f2, f3⟩ := r2fold (List.range j) (resetOK { p with number := 2 })
  rw [f1] at hl
  have hs : (r2Verify e { resetOK { p with number := 2 } with kc := kc } j).1 = .err (.verifyEnc j) := 
    r2Verify_bad hji h1 h2 h3 h4 h5 h6
  have hf := forJ_first (step := r2Verify e) (List.range j) j t _ _ hl (by rw [hs]; simp)
  rw [ht, hf]
  generalize r2Verify e { resetOK { p with number := 2 } with kc := kc } j = q at hs ⊢
  rcases q with ⟨u | er' | _, q⟩
  · exact nomatch hs
  · exact hs
  · exact nomatch hs

/-- C53. A successful third round has verified, for every peer, the log* proof that peer sent: its nonce point `R` is on
the curve and the proof verifies for it against the peer's index, the ciphertext recorded in round 2, the peer's
Paillier key and the own ring-Pedersen parameters. -/
theorem C53_round3_verified {e : Env} {zs : Nat → Int} {r r' : Reg} {key w : Bytes} (hr : Reach e r)
    (h : OnsignRound3Exec e zs r key = (.ok w, r')) :
    ∃ p G, r key = some p ∧ ECPoint.new Ed.curve Ed.curve.Gx Ed.curve.Gy = some G ∧
      ∀ j, j < p.ids.length → j ≠ p.index →
      ∃ rx ry lp m R K n ped, parseWireMsg (p.m2.getD j []) = some (.sg2 rx ry lp) ∧ logUnmarshal lp = some m ∧
        ECPoint.new Ed.curve (beNat rx) (beNat ry) = some R ∧ p.kc.getD j none = some K ∧
        p.keys.paillierPKs.getD j none = some n ∧ p.keys.ringPedersenPKs.getD p.index none = some ped ∧
        m.verify e.Hb Ed.curve proofParameter (p.ssid ++ intBytes (j : Int)) K n ped R G = .ok () := by
  unfold OnsignRound3Exec at h
  cases hk : r key with
  | none => rw [withParty_none _ _ hk] at h; simp at h
  | some p =>
    have hinv := reach_inv hr key p hk
    rw [withParty_some _ _ hk, Prod.mk.injEq] at h
    obtain ⟨h1, -⟩ := h
    obtain ⟨G, E, hG, hl⟩ := r3Exec_ok_loop h1
    refine ⟨p, G, rfl, hG, fun j hj hji => ?_⟩
    obtain ⟨R, rx, ry, lp, m, K, n, ped, a1, a2, a3, a4, a5, a6, a7⟩ :=
      r3Loop_ok hl j (by rw [List.mem_range, hinv.l2]; exact hj) hji
    exact ⟨rx, ry, lp, m, R, K, n, ped, a1, a2, a3, a4, a5, a6, a7⟩

theorem r3Step_bad {e : Env} {zs : Nat → Int} {G : ECPoint} {p : Party} {j : Nat} (hji : j ≠ p.index) {E : Ed.Ext}
    {rx ry lp : Bytes} {m : LogMsg} {R : ECPoint} {K n : Int} {ped : Ped} {er : VErr}
    (h1 : parseWireMsg (p.m2.getD j []) = some (.sg2 rx ry lp)) (h2 : logUnmarshal lp = some m)
    (h3 : ECPoint.new Ed.curve (beNat rx) (beNat ry) = some R) (h4 : p.kc.getD j none = some K)
    (h5 : p.keys.paillierPKs.getD j none = some n) (h6 : p.keys.ringPedersenPKs.getD p.index none = some ped)
    (h7 : m.verify e.Hb Ed.curve proofParameter (p.ssid ++ intBytes (j : Int)) K n ped R G = .err er) :
    r3Step e zs G p E j = (.err (.verifyLog j), E) := by
  unfold r3Step
  generalize Ed.ecPointToExtendedElement = toE
  generalize Ed.curve = curve at *
  rw [if_neg hji, h1]
  simp only
  rw [h2]
  simp only
  rw [h3]
  simp only
  rw [h4, h5, h6]
  simp only
  rw [show context p.ssid j = p.ssid ++ intBytes (j : Int) from rfl, h7]

/-- C53. If a peer's log* proof does not verify (and those of the peers before it are accepted), the third round fails
and names that peer. -/
theorem C53_round3_names_peer {e : Env} {zs : Nat → Int} {r : Reg} {key : Bytes} {p : Party} {G : ECPoint}
    (hr : Reach e r) (hk : r key = some p) (hG : ECPoint.new Ed.curve Ed.curve.Gx Ed.curve.Gy = some G) (j : Nat)
    (hj : j < p.ids.length) (hji : j ≠ p.index)
    (hpre : ∀ i, i < j → i ≠ p.index → ∃ R R8, Good3 e G p i R ∧ ECPoint.eightInvEight Ed.curve R = .ok (some R8))
    {rx ry lp : Bytes} {m : LogMsg} {R : ECPoint} {K n : Int} {ped : Ped} {er : VErr}
    (h1 : parseWireMsg (p.m2.getD j []) = some (.sg2 rx ry lp)) (h2 : logUnmarshal lp = some m)
    (h3 : ECPoint.new Ed.curve (beNat rx) (beNat ry) = some R) (h4 : p.kc.getD j none = some K)
    (h5 : p.keys.paillierPKs.getD j none = some n) (h6 : p.keys.ringPedersenPKs.getD p.index none = some ped)
    (h7 : m.verify e.Hb Ed.curve proofParameter (p.ssid ++ intBytes (j : Int)) K n ped R G = .err er) :
    (OnsignRound3Exec e zs r key).1 = .err (.verifyLog j) ∧
      (Err.verifyLog j).text = ascii "verify log proof failed: , party: " ++ itoa j := by
  refine ⟨?_, rfl⟩
  have hinv := reach_inv hr key p hk
  unfold OnsignRound3Exec
  rw [withParty_some _ _ hk]
  obtain ⟨t, ht⟩ := range_split hj
  have hpre' : ∀ i ∈ List.range j, i ≠ (resetOK { p with number := 3 }).index →
      ∃ R R8, Good3 e G (resetOK { p with number := 3 }) i R ∧ ECPoint.eightInvEight Ed.curve R = .ok (some R8) :=
    fun i hi => hpre i (List.mem_range.mp hi)
  obtain ⟨E, hE⟩ := r3Loop_of hpre' (zs := zs) (Ed.geScalarMultBase (Ed.bigIntToEncodedBytes p.k))
  have hs : r3Step e zs G (resetOK { p with number := 3 }) E j = (.err (.verifyLog j), E) :=
    r3Step_bad (p := resetOK { p with number := 3 }) (n := n) (ped := ped) (K := K) (er := er) hji
      (show parseWireMsg (p.m2.getD j []) = _ from h1) h2 h3 (show p.kc.getD j none = _ from h4)
      (show p.keys.paillierPKs.getD j none = _ from h5) (show p.keys.ringPedersenPKs.getD p.index none = _ from h6)
      (by rw [show (resetOK { p with number := 3 }).ssid = p.ssid from rfl]; exact h7)
  have hf := forJ_first (List.range j) j t _ _ hE (by rw [hs]; simp)
  rw [hs, ← ht, ← hinv.l2] at hf
  exact r3Exec_loop_err hG hf

/-! ### C52 -/

/-- C52. Round 1 finish: Ok iff both messages of every party (the own ones included) are stored; otherwise the error
names the first party with a missing one; nothing changes. -/
theorem C52_finish1_exact {e : Env} {r : Reg} {key : Bytes} {p : Party} (hr : Reach e r) (h : r key = some p) :
    (OnSignRound1Finish r key).2 = r ∧
    ((OnSignRound1Finish r key).1 = .ok () ↔ ∀ j, j < p.ids.length → p.m11.getD j [] ≠ [] ∧ p.m12.getD j [] ≠ []) ∧
    ((OnSignRound1Finish r key).1 ≠ .ok () → ∃ j, j < p.ids.length ∧
      (∀ i, i < j → p.m11.getD i [] ≠ [] ∧ p.m12.getD i [] ≠ []) ∧
      (((OnSignRound1Finish r key).1 = .err (.msg1Null j) ∧ p.m11.getD j [] = []) ∨
       ((OnSignRound1Finish r key).1 = .err (.msg2Null j) ∧ p.m11.getD j [] ≠ [] ∧ p.m12.getD j [] = []))) := by
  have hinv := reach_inv hr key p h
  unfold OnSignRound1Finish
  rw [withParty_some _ _ h]
  simp only
  refine ⟨set_self r key p h, ?_⟩
  have hc := finish1_cases 0 p.m11 p.m12 (by rw [hinv.l11, hinv.l12])
  rw [hinv.l12] at hc
  simp only [Nat.zero_add] at hc
  rcases hc with ⟨h1, h2⟩ | ⟨j, h1, h2, h3⟩
  · exact ⟨⟨fun _ => h2, fun _ => h1⟩, fun hn => absurd h1 hn⟩
  · have hno : finish1 0 p.m11 p.m12 ≠ .ok () := by
      rcases h3 with ⟨h3, -⟩ | ⟨h3, -⟩ <;> rw [h3] <;> simp
    refine ⟨⟨fun h4 => absurd h4 hno, fun h4 => ?_⟩, fun _ => ⟨j, h1, h2, h3⟩⟩
    rcases h3 with ⟨-, h5⟩ | ⟨-, -, h5⟩
    · exact absurd h5 (h4 j h1).1
    · exact absurd h5 (h4 j h1).2

theorem finish_exact (l : List Bytes) (n : Nat) (hl : l.length = n) :
    (finish 0 l = .ok () ↔ ∀ j, j < n → l.getD j [] ≠ []) ∧
    (finish 0 l ≠ .ok () → ∃ j, j < n ∧ (∀ i, i < j → l.getD i [] ≠ []) ∧ finish 0 l = .err (.msgNull j) ∧ l.getD j [] = []) := by
  subst hl
  refine ⟨finish_ok_iff 0 l, fun hn => ?_⟩
  rcases finish_not_ok 0 l with h | ⟨j, h1, h2, h3, h4⟩
  · exact absurd h hn
  · exact ⟨j, h1, h4, by rw [h2, Nat.zero_add], h3⟩

/-- C52. Round 2 finish. -/
theorem C52_finish2_exact {e : Env} {r : Reg} {key : Bytes} {p : Party} (hr : Reach e r) (h : r key = some p) :
    (OnSignRound2Finish r key).2 = r ∧
    ((OnSignRound2Finish r key).1 = .ok () ↔ ∀ j, j < p.ids.length → p.m2.getD j [] ≠ []) ∧
    ((OnSignRound2Finish r key).1 ≠ .ok () → ∃ j, j < p.ids.length ∧ (∀ i, i < j → p.m2.getD i [] ≠ []) ∧
      (OnSignRound2Finish r key).1 = .err (.msgNull j) ∧ p.m2.getD j [] = []) := by
  unfold OnSignRound2Finish
  rw [withParty_some _ _ h]
  exact ⟨set_self r key p h, finish_exact p.m2 _ (reach_inv hr key p h).l2⟩

/-- C52. Round 3 finish. -/
theorem C52_finish3_exact {e : Env} {r : Reg} {key : Bytes} {p : Party} (hr : Reach e r) (h : r key = some p) :
    (OnSignRound3Finish r key).2 = r ∧
    ((OnSignRound3Finish r key).1 = .ok () ↔ ∀ j, j < p.ids.length → p.m3.getD j [] ≠ []) ∧
    ((OnSignRound3Finish r key).1 ≠ .ok () → ∃ j, j < p.ids.length ∧ (∀ i, i < j → p.m3.getD i [] ≠ []) ∧
      (OnSignRound3Finish r key).1 = .err (.msgNull j) ∧ p.m3.getD j [] = []) := by
  unfold OnSignRound3Finish
  rw [withParty_some _ _ h]
  exact ⟨set_self r key p h, finish_exact p.m3 _ (reach_inv hr key p h).l3⟩

/-! ### C51 -/

/-- C51. Round 1 accept: bytes that do not decode to a round-1 message change nothing at all. -/
theorem C51_accept1_bad_keeps {r : Reg} {key : Bytes} (frm : Int) (msg : Bytes)
    (hbad : ∀ b, b64Decode msg = some b → ∀ K, parseWireMsg b ≠ some (.sg1a K) ∧ parseWireMsg b ≠ some (.sg1b K)) :
    (OnSignRound1MsgAccept r key frm msg).2 = r ∧ ∃ er, (OnSignRound1MsgAccept r key frm msg).1 = .err er := by
  unfold OnSignRound1MsgAccept
  cases hk : r key with
  | none => rw [withParty_none _ _ hk]; exact ⟨rfl, _, rfl⟩
  | some p =>
    rw [withParty_some _ _ hk]
    have : ∃ er, r1Accept frm msg p = (.err er, p) := by
      unfold r1Accept
      cases hb : b64Decode msg with
      | none => exact ⟨_, rfl⟩
      | some b =>
        simp only
        cases hp : parseWireMsg b with
        | none => exact ⟨_, rfl⟩
        | some c =>
          cases c with
          | sg1a K => exact absurd hp (hbad b hb K).1
          | sg1b K => exact absurd hp (hbad b hb K).2
          | _ => exact ⟨_, rfl⟩
    obtain ⟨er, h⟩ := this
    rw [h]
    exact ⟨set_self r key p hk, er, rfl⟩

/-- C51. Round 1 accept: a broadcast (type 1) message for a valid index is stored in that broadcast slot and nowhere
else. -/
theorem C51_accept1_files_broadcast {e : Env} {r : Reg} {key : Bytes} {p : Party} (hr : Reach e r) (hk : r key = some p)
    {i : Nat} (hi : i < p.ids.length) {msg b K : Bytes} (hb : b64Decode msg = some b)
    (hp : parseWireMsg b = some (.sg1a K)) :
    OnSignRound1MsgAccept r key (i : Int) msg = (.ok (), r.set key (some { p with m11 := p.m11.set i b })) := by
  unfold OnSignRound1MsgAccept
  rw [withParty_some _ _ hk]
  have : r1Accept (i : Int) msg p = (.ok (), { p with m11 := p.m11.set i b }) := by
    unfold r1Accept
    rw [hb]
    simp only
    rw [hp]
    simp only
    rw [if_pos ⟨by omega, by rw [(reach_inv hr key p hk).l11]; omega⟩, Int.toNat_natCast]
  rw [this]

/-- C51. Round 1 accept: a point-to-point (type 2) message for a valid index is stored in that point-to-point slot and
nowhere else. -/
theorem C51_accept1_files_p2p {e : Env} {r : Reg} {key : Bytes} {p : Party} (hr : Reach e r) (hk : r key = some p)
    {i : Nat} (hi : i < p.ids.length) {msg b proof : Bytes} (hb : b64Decode msg = some b)
    (hp : parseWireMsg b = some (.sg1b proof)) :
    OnSignRound1MsgAccept r key (i : Int) msg = (.ok (), r.set key (some { p with m12 := p.m12.set i b })) := by
  unfold OnSignRound1MsgAccept
  rw [withParty_some _ _ hk]
  have : r1Accept (i : Int) msg p = (.ok (), { p with m12 := p.m12.set i b }) := by
    unfold r1Accept
    rw [hb]
    simp only
    rw [hp]
    simp only
    rw [if_pos ⟨by omega, by rw [(reach_inv hr key p hk).l12]; omega⟩, Int.toNat_natCast]
  rw [this]

/-- C51. Round 2 accept overwrites the slot first: whatever base64 text arrives for a valid index replaces the stored
message, and only then is it parsed; the call is Ok iff the bytes are a round-2 message. -/
theorem C51_accept2_overwrites {e : Env} {r : Reg} {key : Bytes} {p : Party} (hr : Reach e r) (hk : r key = some p)
    {i : Nat} (hi : i < p.ids.length) {msg b : Bytes} (hb : b64Decode msg = some b) :
    (OnSignRound2MsgAccept r key (i : Int) msg).2 = r.set key (some { p with m2 := p.m2.set i b }) ∧
    ((OnSignRound2MsgAccept r key (i : Int) msg).1 = .ok () ↔ ∃ rx ry lp, parseWireMsg b = some (.sg2 rx ry lp)) := by
  unfold OnSignRound2MsgAccept
  rw [withParty_some _ _ hk]
  have hl : (0 : Int) ≤ (i : Int) ∧ (i : Int) < p.m2.length := ⟨by omega, by rw [(reach_inv hr key p hk).l2]; omega⟩
  unfold accept
  rw [hb]
  simp only [hl, and_self, if_true, Int.toNat_natCast]
  cases hp : parseWireMsg b with
  | none => simp
  | some c => cases c <;> simp [Content.kind]

/-- C51. Round 3 accept likewise. -/
theorem C51_accept3_overwrites {e : Env} {r : Reg} {key : Bytes} {p : Party} (hr : Reach e r) (hk : r key = some p)
    {i : Nat} (hi : i < p.ids.length) {msg b : Bytes} (hb : b64Decode msg = some b) :
    (OnSignRound3MsgAccept r key (i : Int) msg).2 = r.set key (some { p with m3 := p.m3.set i b }) ∧
    ((OnSignRound3MsgAccept r key (i : Int) msg).1 = .ok () ↔ ∃ s, parseWireMsg b = some (.sg3 s)) := by
  unfold OnSignRound3MsgAccept
  rw [withParty_some _ _ hk]
  have hl : (0 : Int) ≤ (i : Int) ∧ (i : Int) < p.m3.length := ⟨by omega, by rw [(reach_inv hr key p hk).l3]; omega⟩
  unfold accept
  rw [hb]
  simp only [hl, and_self, if_true, Int.toNat_natCast]
  cases hp : parseWireMsg b with
  | none => simp
  | some c => cases c <;> simp [Content.kind]

/-- C51. Text that is not base64 changes nothing in any round; an index outside the parties crashes the call without
storing anything. -/
theorem C51_accept_not_base64 {r : Reg} {key : Bytes} {p : Party} (hk : r key = some p) (frm : Int) {msg : Bytes}
    (hb : b64Decode msg = none) :
    OnSignRound1MsgAccept r key frm msg = (.err .base64, r) ∧ OnSignRound2MsgAccept r key frm msg = (.err .base64, r) ∧
    OnSignRound3MsgAccept r key frm msg = (.err .base64, r) := by
  unfold OnSignRound1MsgAccept OnSignRound2MsgAccept OnSignRound3MsgAccept
  rw [withParty_some _ _ hk, withParty_some _ _ hk, withParty_some _ _ hk]
  unfold r1Accept accept
  rw [hb]
  exact ⟨by rw [set_self r key p hk], by rw [set_self r key p hk], by rw [set_self r key p hk]⟩

/-- C51. An index outside the parties crashes rounds 2 and 3 accepts (base64 text) without storing anything. -/
theorem C51_accept_bad_index {e : Env} {r : Reg} {key : Bytes} {p : Party} (hr : Reach e r) (hk : r key = some p)
    (frm : Int) (hf : frm < 0 ∨ (p.ids.length : Int) ≤ frm) {msg b : Bytes} (hb : b64Decode msg = some b) :
    OnSignRound2MsgAccept r key frm msg = (.panic, r) ∧ OnSignRound3MsgAccept r key frm msg = (.panic, r) := by
  have hinv := reach_inv hr key p hk
  unfold OnSignRound2MsgAccept OnSignRound3MsgAccept
  rw [withParty_some _ _ hk, withParty_some _ _ hk]
  have h2 : ¬ (0 ≤ frm ∧ frm < (p.m2.length : Int)) := by rw [hinv.l2]; omega
  have h3 : ¬ (0 ≤ frm ∧ frm < (p.m3.length : Int)) := by rw [hinv.l3]; omega
  unfold accept
  rw [hb]
  simp only [h2, h3, if_false]
  exact ⟨by rw [set_self r key p hk], by rw [set_self r key p hk]⟩

end Tss.Onsign
