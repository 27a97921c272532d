import Verif.Props.Divided
/-! C115 on the two-party session of `toyHonestK`: party 0 is asked for the message 00 ff 07, party 1 for 00 ff 05. -/
namespace Tss.Onsign
open Tss Text Wire RangeProofs

/-- A "hash" that returns the last byte of its input. -/
def lastByte (b : Bytes) : Bytes := [b.getLastD 0]

theorem lastByte_challenge (R A M : Bytes) (c : UInt8) (hM : intBytes (beNat M : Int) = [0xff, c]) :
    spec.challenge lastByte R A (intBytes (beNat M : Int)) = c.toNat := by
  unfold spec.challenge lastByte
  rw [hM, List.getLastD_eq_getLast?, List.getLast?_append]
  simp only [List.getLast?_cons_cons, List.getLast?_singleton, Option.some_or, Option.getD_some, leNat]
  have hc := c.toNat_lt
  have ho : 256 ≤ Ed.ord := by decide +kernel
  simp only [mul_zero, add_zero]
  exact Nat.mod_eq_of_lt (by omega)

/-- C115: the two parties of the toy session, one asked for 00ff07 and the other for 00ff05.  The session satisfies the
hypotheses, the signers go through all rounds, and no run gives either of them a signature. -/
theorem C115_two_messages (k : Nat → Int) (hk : ∀ i, 0 ≤ k i ∧ k i < 15) :
    let S := spec.withMessages (toySessionK k) (spec.oddOne 1 [0, 0xff, 7] [0, 0xff, 5])
    S.n = 2 ∧ (S.args 0).msg = ascii "00ff07" ∧ (S.args 1).msg = ascii "00ff05" ∧
    (∃ s, Run (toyEnvSha lastByte) S s ∧ ∀ i, i < 2 → s.stage i = 5) ∧
    ∀ s, Run (toyEnvSha lastByte) S s → ∀ i, s.final i = none := by
  intro S
  obtain ⟨H⟩ := toyHonestK lastByte k hk
  have hx : ∀ i, i < 2 → beNat (H.child i) % Ed.ord = i + 6 := by
    intro i hi
    have h1 := (toy_child _ _ H i hi).2
    have h2 : ((beNat (H.child i) % Ed.ord : Nat) : Int) = ((i + 6 : Nat) : Int) := by
      rw [Int.natCast_emod]
      show _ % Ed.curve.N = _
      rw [h1]
      have : i = 0 ∨ i = 1 := by omega
      rcases this with rfl | rfl <;> decide +kernel
    exact_mod_cast h2
  have hc : spec.challengeFor H.signers [0, 0xff, 7] ≠ spec.challengeFor H.signers [0, 0xff, 5] := by
    have h7 : spec.challengeFor H.signers [0, 0xff, 7] = 7 := lastByte_challenge _ _ _ 7 (by decide +kernel)
    have h5 : spec.challengeFor H.signers [0, 0xff, 5] = 5 := lastByte_challenge _ _ _ 5 (by decide +kernel)
    rw [h7, h5]
    omega
  refine ⟨rfl, ?_, ?_, ?_, ?_⟩
  · show hexEncode [0, 0xff, 7] = ascii "00ff07"
    decide +kernel
  · show hexEncode [0, 0xff, 5] = ascii "00ff05"
    decide +kernel
  · obtain ⟨s, h1, h2⟩ := C115_reaches_last (H.signers.divided (spec.oddOne 1 [0, 0xff, 7] [0, 0xff, 5])) _
      (Run.init fun _ => none)
    exact ⟨s, steps_run h1 (Run.init _), h2⟩
  · intro s hr i
    refine C115_no_signature H.signers rfl 1 (by show 1 < 2; omega) _ _ hc ?_ ?_ s hr i
    · show beNat (H.child 1) % Ed.ord ≠ 0
      rw [hx 1 (by omega)]
      omega
    · have : (Finset.range (toySessionK k).n).erase 1 = {0} := by
        show (Finset.range 2).erase 1 = {0}
        decide
      rw [this, Finset.sum_singleton]
      show beNat (H.child 0) % Ed.ord ≠ 0
      rw [hx 0 (by omega)]
      omega

end Tss.Onsign
