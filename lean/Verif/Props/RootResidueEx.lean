import Verif.Props.RootResidue
import Verif.Props.EndToEndEx
import Verif.Props.Transcripts
/-
C113, concrete cases.
-/
namespace Tss.EndToEnd
open Tss Text Wire

/-- 2^256 in hexadecimal, as 33 bytes. -/
def longRoot : Bytes := ascii "010000000000000000000000000000000000000000000000000000000000000000"

/-- 1 plus the group order, as 32 bytes. -/
def sameRoot : Bytes := ascii "1000000000000000000000000000000014def9dea2f79cd65812631a5cf5d3ee"

/-- C113, non-vacuity: the root key 1 of the example can be replaced by one that is larger by the group order; the pair meets the hypotheses of
`C113_history` and is not trivial. -/
theorem C113_example_root : ∃ b b', hexDecode (exK.root 0) = some b ∧ hexDecode sameRoot = some b' ∧ b ≠ b' ∧
    (beNat b : Int) ≡ beNat b' [ZMOD (kgEnv exH).c.N] ∧ beNat b' < 2 ^ 256 ∧
    Keygen.spec.SameResidue (kgEnv exH).c.N (exK.key 0) (fun _ => none) (fun _ => none) := by
  refine ⟨[1], (hexDecode sameRoot).getD [], by decide +kernel, by decide +kernel, by decide +kernel, ?_, by decide +kernel,
    fun _ _ => rfl, Or.inl ⟨rfl, rfl⟩⟩
  show (beNat [1] : Int) ≡ beNat ((hexDecode sameRoot).getD []) [ZMOD (Ed.ord : Int)]
  decide +kernel

/-- C113, non-vacuity: a key generation in which one root key has 33 bytes. Every call of it is answered Ok; a party that has finished returns save
data; and these crash the creation of a signing party, by the real encoding and decoding of records. -/
theorem C113_example_long (s : Keygen.Net) (hr : Keygen.Run (kgEnv exH) (exK.withRoot 0 longRoot) s) :
    (∀ out s', Keygen.Step (kgEnv exH) (exK.withRoot 0 longRoot) s out s' → ∃ b, out = .ok b) ∧
      (s.stage 0 = 5 → ∃ out, s.final 0 = some out ∧ ∀ r key a ids, b64Decode a.keyData = some out → Onsign.spec.IdsFit a ids →
        (split 47 a.path).length = 5 → Onsign.NewLocalParty exE r key a = (.panic, r)) := by
  have hl : hexDecode longRoot = some (1 :: List.replicate 32 0) := by decide +kernel
  refine Onsign.C113_too_long_root (kgEnv exH) Ed.lawful _ (Keygen.good_withRoot exK_good 0 longRoot _ hl) s hr 0 (by decide) ?_ exE ?_
  · show (2 : Int) ^ 256 ≤ (exK.withRoot 0 longRoot).x 0
    have : (exK.withRoot 0 longRoot).x 0 = (beNat (1 :: List.replicate 32 0) : Int) := by
      unfold Keygen.Session.x Keygen.Session.withRoot
      simp only [if_true, hl, Option.getD_some]
    rw [this]
    decide +kernel
  · intro d b hb h1 h2
    have hb' : SaveJson.marshal d = b := Option.some.inj hb
    exact ⟨d, by show SaveJson.unmarshal b = some d; rw [← hb']; exact SaveJson.C76_save_round_trip d h1 h2, rfl⟩

end Tss.EndToEnd
