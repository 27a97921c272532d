import Verif.Props.AnswerHides
import Verif.Props.KeygenApi
import Verif.Props.SignBlameEx
/-! C121: the hypotheses are met by every party of an honest key generation and of an honest signing session. -/
namespace Tss.Keygen
open Tss Text Wire

/-- Party 0 of the toy key generation: its answer is nonce + c·x modulo 11. -/
theorem C121_case_keygen : ∃ (r r1 r3 : Reg) (w1 w3 : Bytes) (p0 p : Party) (ops : List Op) (c : Int), r [0] = some p0 ∧
    KeygenRound1Exec exEnv (exSession.rnd 0) r [0] = (.ok w1, r1) ∧ spec.After 1 [0] ops ∧
    KeygenRound3Exec exEnv (runOps exEnv ops r1) [0] = (.ok w3, r3) ∧ r3 [0] = some p ∧
    ∃ x : Int, p.save.privXi = some x ∧ spec.answer w3 = some (((exSession.rnd 0).tau + c * x) % exEnv.c.N).toNat := by
  obtain ⟨p, a1, -⟩ := client_ok exGood (fun _ => none) (i := 0) (by decide)
  obtain ⟨M, M2, ⟨r0, r1, r2, ops1, w2, q, hr, h1, h1a, -, -, h2, hc⟩, -⟩ := client_ran .init a1
  obtain ⟨ops2, ops3, w3, out, r3, r4, qm, a2, -, -, h3, -⟩ := hc
  have hp0 : ∃ p0, r0 [0] = some p0 := by
    cases h : r0 [0] with
    | none =>
      have h1' : KeygenRound1Exec exEnv (exSession.rnd 0) r0 [0] = _ := h1
      unfold KeygenRound1Exec withParty at h1'
      rw [h] at h1'
      cases (Prod.mk.inj h1').1
    | some p0 => exact ⟨p0, rfl⟩
  obtain ⟨p0, hp0⟩ := hp0
  have hops : spec.After 1 [0] (ops1 ++ Op.exec2 [0] :: ops2) := by
    intro op hm hk
    rcases List.mem_append.mp hm with h | h
    · exact h1a op h hk
    · rcases List.mem_cons.mp h with rfl | h
      · decide
      · exact lt_trans (by decide) (a2 op h hk)
  have happ : ∀ (l m : List Op) (r : Reg), runOps exEnv (l ++ m) r = runOps exEnv m (runOps exEnv l r) := by
    intro l
    induction l with
    | nil => intro m r; rfl
    | cons a t ih => intro m r; exact ih m _
  have hrun : runOps exEnv (ops1 ++ Op.exec2 [0] :: ops2) r1 = runOps exEnv ops2 r2 := by
    rw [happ]
    show runOps exEnv ops2 (KeygenRound2Exec (runOps exEnv ops1 r1) [0]).2 = _
    rw [show KeygenRound2Exec (runOps exEnv ops1 r1) [0] = (.ok w2, r2) from h2]
  have h3' : KeygenRound3Exec exEnv (runOps exEnv (ops1 ++ Op.exec2 [0] :: ops2) r1) [0] = (.ok w3, r3) := by rw [hrun]; exact h3
  obtain ⟨pp, x, c, X, A, b1, b2, -, -, -, -, -, b7, -⟩ := C121_keygen toyLawful (by decide) hp0 h1 _ hops h3'
  exact ⟨r0, r1, r3, _, w3, p0, pp, _, c, hp0, h1, hops, h3', b1, x, b2, b7⟩

end Tss.Keygen

namespace Tss.Onsign
open Tss Text Wire RangeProofs
variable {e : Env} {S : Session}

/-- Every signer of an honest session meets the hypotheses of `C121_signing`. -/
theorem C121_case_signing (H : Honest e S) {i : Nat} (hi : i < S.n) :
    ∃ (w1 w : Bytes) (M1 : List Bytes) (r r' : Reg) (p : Party), spec.Signed2 e (S.key i) (S.rnd i) w1 M1 r ∧ r (S.key i) = some p ∧
      p.keys.privXi = some (H.x i) ∧ (0 ≤ H.x i ∧ H.x i < 2 ^ 256) ∧ (S.rnd i).k < 2 ^ 256 ∧
      OnsignRound3Exec e (S.zs i) r (S.key i) = (.ok w, r') := by
  obtain ⟨F, f1, f2, f3, f4⟩ := H.facts
  obtain ⟨s, g1, g2⟩ := C55_can_finish H _ (told_init F).run
  obtain ⟨t, t1, t2, -, t3, -⟩ := crossing (i := i) g1 (told_init F) 3 (by simp) (by rw [g2 i hi]; decide)
  have ta := t3 rfl
  obtain ⟨p, p1, p2⟩ := (run_inv F.toGFacts t1.run).stage_ne hi (by omega)
  rw [t2] at p2
  obtain ⟨wi, Mi, hwi, -⟩ := t1.two i hi t2
  obtain ⟨p', a1, -⟩ := p2.exec3 hi ta
  obtain ⟨ep, hkeys⟩ := p2.keys
  obtain ⟨-, -, k1⟩ := F.kr i hi
  have hord : (Ed.ord : Int) < 2 ^ 256 := by decide +kernel
  refine ⟨wi, wireBytes (F.cont .three i i), Mi, t.reg, t.reg.set (S.key i) (some p'), p, hwi, p1, ?_, ⟨?_, ?_⟩, k1, ?_⟩
  · rw [hkeys]; simp only; rw [f2]; rfl
  · exact Int.natCast_nonneg _
  · exact lt_trans (H.x_lt i hi) hord
  · unfold OnsignRound3Exec
    rw [withParty_some _ _ p1, a1]

/-- The toy session. -/
example (sha512 : Bytes → Bytes) (k : Nat → Int) (hk : ∀ i, 0 ≤ k i ∧ k i < 15) : ∃ (w : Bytes) (c : Nat) (x : Int) (r r' : Reg),
    OnsignRound3Exec (toyEnvSha sha512) ((toySessionK k).zs 0) r ((toySessionK k).key 0) = (.ok w, r') ∧
    w = wireBytes (.sg3 (intBytes ((k 0 + c * x) % Ed.ord))) := by
  obtain ⟨H⟩ := toyHonestK sha512 k hk
  obtain ⟨w1, w, M1, r, r', p, a1, a2, a3, a4, a5, a6⟩ := C121_case_signing H (i := 0) (by show 0 < 2; omega)
  obtain ⟨R, A, p', c, -, -, -, -, -, -, h, -⟩ := C121_signing a1 a2 a3 a4 a5 a6
  exact ⟨w, c, _, r, r', a6, h⟩

end Tss.Onsign
