import Verif.Props.RangeSound
import Verif.Props.Onsign
/-
C106 at the level of the signing rounds.
-/
namespace Tss.Onsign
open Tss Text Wire RangeProofs RangeProofs.spec
open _root_.Tss.AlicePaillier (Key Decrypt)
open _root_.Tss.AlicePaillier.spec (IsKey)

/-- C106: when round 2 succeeds, every peer whose Paillier modulus is a proper one and whose ciphertext decrypts to m has answered the
challenge for m: its answer, an integer within the bound, is a + e·m modulo the peer's modulus, a being what its first message decrypts to. -/
theorem C106_round2 {e : Env} {draws : Nat → Draws} {r r' : Reg} {key : Bytes} (hr : Reach e r)
    (h : OnsignRound2Exec e draws r key = (.ok (), r')) :
    ∃ p, r key = some p ∧ ∀ j, j < p.ids.length → j ≠ p.index → ∀ (k : Key) (P Q : ℕ), IsKey k P Q →
      p.keys.paillierPKs.getD j none = some ((P * Q : ℕ) : ℤ) → ∀ (K : Bytes) (m : ℕ), parseWireMsg (p.m11.getD j []) = some (.sg1a K) →
      Decrypt k K = .ok (natBE m) → ∃ proof msg ped a z1, parseWireMsg (p.m12.getD j []) = some (.sg1b proof) ∧
        encUnmarshal proof = some msg ∧ p.keys.ringPedersenPKs.getD p.index none = some ped ∧ Decrypt k msg.A = .ok (natBE a) ∧
        parseBig 10 msg.z1 = some z1 ∧ |z1| ≤ 2 * 2 ^ proofParameter.lAddEpsilon ∧
        z1 ≡ a + encChallenge e.Hb proofParameter (p.ssid ++ intBytes (j : Int)) (beNat K) ((P * Q : ℕ) : ℤ) ped msg * m [ZMOD ((P * Q : ℕ) : ℤ)] := by
  obtain ⟨p, p', hp, -, hall⟩ := C53_round2_verified hr h
  refine ⟨p, hp, fun j hj hji k P Q hk hn K m hK hm => ?_⟩
  obtain ⟨K', proof, msg, n, ped, h1, h2, h3, h4, h5, h6, -⟩ := hall j hj hji
  rw [hK] at h1
  injection h1 with h1
  injection h1 with h1
  subst h1
  rw [hn] at h4
  injection h4 with h4
  subst h4
  obtain ⟨a, z1, -, ha, hz, hb, -, hm'⟩ := C106_enc_answer e.Hb proofParameter _ k P Q hk K m hm ped msg h6
  exact ⟨proof, msg, ped, a, z1, h2, h3, h5, ha, hz, hb, hm'⟩

/-- C106: when round 3 succeeds, every such peer has answered with one and the same integer for the plaintext and for the nonce point R
it sent. -/
theorem C106_round3 {e : Env} {zs : Nat → Int} {r r' : Reg} {key w : Bytes} (hr : Reach e r)
    (h : OnsignRound3Exec e zs r key = (.ok w, r')) :
    ∃ p, r key = some p ∧ ∀ j, j < p.ids.length → j ≠ p.index → ∀ (k : Key) (P Q : ℕ), IsKey k P Q →
      p.keys.paillierPKs.getD j none = some ((P * Q : ℕ) : ℤ) → ∀ (kb : Bytes) (m : ℕ), p.kc.getD j none = some ((beNat kb : ℕ) : ℤ) →
      Decrypt k kb = .ok (natBE m) → ∃ rx ry lp msg R ped a z1 c, parseWireMsg (p.m2.getD j []) = some (.sg2 rx ry lp) ∧
        logUnmarshal lp = some msg ∧ ECPoint.new Ed.curve (beNat rx) (beNat ry) = some R ∧
        p.keys.ringPedersenPKs.getD p.index none = some ped ∧ Decrypt k msg.A = .ok (natBE a) ∧
        parseBig 10 msg.z1 = some z1 ∧ |z1| ≤ 2 * 2 ^ proofParameter.lAddEpsilon ∧
        c = logChallenge e.Hb proofParameter (p.ssid ++ intBytes (j : Int)) (beNat kb) ((P * Q : ℕ) : ℤ) ped R ⟨Ed.curve.Gx, Ed.curve.Gy⟩ msg ∧
        z1 ≡ a + c * m [ZMOD ((P * Q : ℕ) : ℤ)] ∧
        z1 • Ed.lawful.base = Ed.lawful.val ⟨beNat msg.Yx, beNat msg.Yy⟩ + (c % Ed.curve.N) • Ed.lawful.val R := by
  obtain ⟨p, G, hp, hG, hall⟩ := C53_round3_verified hr h
  have hG' : G = ⟨Ed.curve.Gx, Ed.curve.Gy⟩ := by
    unfold ECPoint.new at hG
    split at hG
    · injection hG with hG; exact hG.symm
    · cases hG
  refine ⟨p, hp, fun j hj hji k P Q hk hn kb m hK hm => ?_⟩
  obtain ⟨rx, ry, lp, msg, R, K', n, ped, h1, h2, h3, h4, h5, h6, h7⟩ := hall j hj hji
  rw [hK] at h4
  injection h4 with h4
  subst h4
  rw [hn] at h5
  injection h5 with h5
  subst h5
  have hR : Ed.curve.On R := by
    unfold ECPoint.new at h3
    split at h3
    · next hc => injection h3 with h3; subst h3; exact hc
    · cases h3
  subst hG'
  have hb : Ed.lawful.val ⟨Ed.curve.Gx, Ed.curve.Gy⟩ = Ed.lawful.base := Ed.lawful.base_eq
  obtain ⟨a, z1, -, ha, hz, hbd, -, hm', hpt⟩ := C106_log_answer Ed.lawful e.Hb proofParameter rfl _ k P Q hk kb m hm ped R
    ⟨Ed.curve.Gx, Ed.curve.Gy⟩ hR Ed.lawful.base_onCurve (by rw [hb]; exact Ed.lawful.N_base) msg h7
  rw [hb] at hpt
  exact ⟨rx, ry, lp, msg, R, ped, a, z1, _, h1, h2, h3, h6, ha, hz, hbd, rfl, hm', hpt⟩

end Tss.Onsign
