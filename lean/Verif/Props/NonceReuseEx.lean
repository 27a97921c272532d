import Verif.Props.NonceReuse
import Verif.Props.OnsignHonestEx
/-! C78: a concrete case, two parties; the second one replays the session with nonce 4 instead of 3 and learns the share
of the first one. -/
namespace Tss.Onsign
open Tss Text Wire RangeProofs Alice

/-- toy SHA-512 that tells the two nonce sums 3 + 3 and 3 + 4 apart -/
noncomputable def splitSha (b : Bytes) : Bytes := if b.take 32 = Ed.encode ((6 : Int) • Ed.B) then [1] else [2]

theorem sixB_ne_sevenB : Ed.encode ((7 : Int) • Ed.B) ≠ Ed.encode ((6 : Int) • Ed.B) := by
  intro h
  have h1 := Ed.encode_injective h
  have h2 : Ed.B = 0 := by
    have : (7 : Int) • Ed.B - (6 : Int) • Ed.B = 0 := by rw [h1, sub_self]
    rw [← sub_smul] at this
    simpa using this
  exact Ed.B_ne_zero h2

theorem split_challenge (A M : Bytes) : spec.challenge splitSha (Ed.encode ((6 : Int) • Ed.B)) A M = 1 ∧
    spec.challenge splitSha (Ed.encode ((7 : Int) • Ed.B)) A M = 2 := by
  have t : ∀ g : Ed.Point, (Ed.encode g ++ A ++ M).take 32 = Ed.encode g := by
    intro g
    rw [List.append_assoc, List.take_left' (Ed.encode_length g)]
  unfold spec.challenge splitSha
  rw [t, t, if_pos rfl, if_neg sixB_ne_sevenB]
  decide +kernel

/-- nonces 3, 3 and then 3, 4 -/
def nonce34 (i : Nat) : Int := if i = 0 then 3 else 4

/-- Both parties run their three rounds; then party 0 is led to a second answer. The two answers give its share. -/
example : ∃ (s : Net) (H : Honest (toyEnvSha splitSha) (toySessionK fun _ => 3)) (s1 s2 : Nat) (ops : List Op) (r' : Reg),
    Run (toyEnvSha splitSha) (toySessionK fun _ => 3) s ∧ s.sent .three 0 1 = some (wireBytes (.sg3 (intBytes (s1 : Int)))) ∧
    OnsignRound3Exec (toyEnvSha splitSha) (fun _ => 1) (runOps (toyEnvSha splitSha) ops s.reg) [0] =
      (.ok (wireBytes (.sg3 (intBytes (s2 : Int)))), r') ∧ spec.recover s1 s2 1 2 = beNat (H.child 0) := by
  obtain ⟨H⟩ := toyHonestK splitSha (fun _ => 3) (fun _ => by decide)
  obtain ⟨H'⟩ := toyHonestK splitSha nonce34 (fun i => by unfold nonce34; split <;> decide)
  obtain ⟨s, h1, h2⟩ := C55_can_finish H _ (Run.init fun _ => none)
  replace h1 := h1.run (Run.init fun _ => none)
  have hS : toySessionK nonce34 = (toySessionK fun _ => 3).redraw (toySessionK nonce34).rnd (toySessionK nonce34).draws
    (toySessionK nonce34).zs := rfl
  rw [hS] at H'
  obtain ⟨s1, s2, ops, r', -, g1, g2, g3⟩ := C78_share_recovered H H' 0 (by decide) rfl s h1 (by rw [h2 0 (by decide)]; decide)
    (c1 := 1) (c2 := 2) rfl rfl
    (by
      have := (split_challenge (Ed.encode (((List.range 2).map fun j => (beNat (H.child j) : Int)).sum • Ed.B))
        (H.msg.dropWhile (· = 0))).1
      exact this.symm)
    (by
      have := (split_challenge (Ed.encode (((List.range 2).map fun j => (beNat (H.child j) : Int)).sum • Ed.B))
        (H.msg.dropWhile (· = 0))).2
      exact this.symm) (by decide)
  exact ⟨s, H, s1, s2, ops, r', h1, g1 1 (by decide), g2, g3⟩

end Tss.Onsign
