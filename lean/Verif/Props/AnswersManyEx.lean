import Verif.Props.AnswersMany
import Verif.Props.AnswerHidesEx
/-
C121, many sessions: the honest sessions are examples.
-/
namespace Tss.Onsign
open Tss Text Wire RangeProofs
variable {e : Env} {S : Session}

/-- Every signer of an honest session is a session of `C121_sessions`. -/
theorem C121_case_sessions (H : Honest e S) {i : Nat} (hi : i < S.n) : ∃ s : spec.Session (H.x i), s.rnd = S.rnd i ∧ s.d = 0 ∧ s.e = e := by
  obtain ⟨F, -⟩ := H.facts
  obtain ⟨k0, k0', -⟩ := F.kr i hi
  obtain ⟨w1, w, M1, r, r', p, a1, a2, a3, a4, a5, a6⟩ := C121_case_signing H hi
  exact ⟨⟨e, S.zs i, r, r', S.key i, w1, w, M1, S.rnd i, p, H.x i, 0, a1, a2, a3, by rw [add_zero], a4, ⟨k0, a5⟩, a6⟩, rfl, rfl, rfl⟩

end Tss.Onsign
