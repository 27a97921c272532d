import Verif.Props.PathLeak
import Verif.Props.NonceReuseEx
/-! C120: a concrete case, the two parties of `NonceReuseEx`: the second one learns the stored share of the first one. -/
namespace Tss.Onsign
open Tss Text Wire RangeProofs Alice

example : ∃ (s : Net) (H : Honest (toyEnvSha splitSha) (toySessionK fun _ => 3)) (s1 s2 : Nat) (ops : List Op) (r' : Reg) (is : List Nat),
    Run (toyEnvSha splitSha) (toySessionK fun _ => 3) s ∧ s.sent .three 0 1 = some (wireBytes (.sg3 (intBytes (s1 : Int)))) ∧
    OnsignRound3Exec (toyEnvSha splitSha) (fun _ => 1) (runOps (toyEnvSha splitSha) ops s.reg) [0] =
      (.ok (wireBytes (.sg3 (intBytes (s2 : Int)))), r') ∧ Ckd.spec.PathIs H.path is ∧
    H.x0 0 ≡ spec.recover s1 s2 1 2 - Ckd.spec.pathTweak (toyEnvSha splitSha).hmac512 H.grp (intBytes (H.code 0)) is [ZMOD Ed.ord] := by
  obtain ⟨H⟩ := toyHonestK splitSha (fun _ => 3) (fun _ => by decide)
  obtain ⟨H'⟩ := toyHonestK splitSha nonce34 (fun i => by unfold nonce34; split <;> decide)
  obtain ⟨s, h1, h2⟩ := C55_can_finish H _ (Run.init fun _ => none)
  replace h1 := h1.run (Run.init fun _ => none)
  have hS : toySessionK nonce34 = (toySessionK fun _ => 3).redraw (toySessionK nonce34).rnd (toySessionK nonce34).draws
    (toySessionK nonce34).zs := rfl
  rw [hS] at H'
  have hgrp : ∃ g : Ed.Point, H.grp = Ed.lawful.pt g := by
    obtain ⟨b, hb, hj⟩ := H.keyData 0 (by decide)
    have h1 := H.group 0 (by decide)
    have h2 : (toyEnvSha splitSha).jsonDec b = some (toyData b.length) := rfl
    rw [h2] at hj
    rw [← Option.some.inj hj] at h1
    exact ⟨_, (Option.some.inj h1).symm⟩
  obtain ⟨g, hg⟩ := hgrp
  have hrange := Ckd.coords_range g
  obtain ⟨s1, s2, ops, r', is, -, g1, g2, g3, g4⟩ := C120_root_share_recovered H H' (by rw [hg]; exact hrange.1) (by rw [hg]; exact hrange.2)
    0 (by decide) rfl s h1 (by rw [h2 0 (by decide)]; decide)
    (c1 := 1) (c2 := 2) rfl rfl
    (by
      have := (split_challenge (Ed.encode (((List.range 2).map fun j => (beNat (H.child j) : Int)).sum • Ed.B))
        (H.msg.dropWhile (· = 0))).1
      exact this.symm)
    (by
      have := (split_challenge (Ed.encode (((List.range 2).map fun j => (beNat (H.child j) : Int)).sum • Ed.B))
        (H.msg.dropWhile (· = 0))).2
      exact this.symm) (by decide)
  exact ⟨s, H, s1, s2, ops, r', is, h1, g1 1 (by decide), g2, g3, g4⟩

end Tss.Onsign
