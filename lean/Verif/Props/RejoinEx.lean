import Verif.Props.Rejoin
import Verif.Props.NonceReuseEx
/-! C116 on the two-party session of `toyHonestK`. -/
namespace Tss.Onsign
open Tss Text Wire RangeProofs

/-- C116: party 0 of the toy session (nonces 3 and 5) is lost after it has sent its round-1 message, and comes back with nonce 7;
both go on and finish. -/
theorem C116_lost_after_round1 (sha512 : Bytes → Bytes) : ∃ s s' : Net,
    Run (toyEnvSha sha512) (toySessionK fun i => if i = 0 then 3 else 5) s ∧ s.stage 0 = 2 ∧ s.stage 1 = 2 ∧
    s.sent .a 0 1 ≠ none ∧
    RunLoss (toyEnvSha sha512) (toySessionK fun i => if i = 0 then 7 else 5)
      (spec.afterLoss (fun i => i == 0) (s.reg.set [0] none) s) ∧
    Steps (toyEnvSha sha512) (toySessionK fun i => if i = 0 then 7 else 5)
      (spec.afterLoss (fun i => i == 0) (s.reg.set [0] none) s) s' ∧ s'.stage 0 = 5 ∧ s'.stage 1 = 5 := by
  obtain ⟨H⟩ := toyHonestK sha512 (fun i => if i = 0 then 3 else 5) fun i => by split <;> omega
  obtain ⟨H'⟩ := toyHonestK sha512 (fun i => if i = 0 then 7 else 5) fun i => by split <;> omega
  generalize hS : (toySessionK fun i => if i = 0 then 3 else 5) = S at H
  have n2 : S.n = 2 := by rw [← hS]; rfl
  have hk : ∀ i, S.key i = [UInt8.ofNat i] := by rw [← hS]; intro i; rfl
  have hr1 : (S.rnd 1) = ((toySessionK fun i => if i = 0 then 7 else 5).rnd 1) := by rw [← hS]; rfl
  have hS' : ∃ rnd' draws' zs', (toySessionK fun i => if i = 0 then 7 else 5) = S.redraw rnd' draws' zs' ∧ rnd' 1 = S.rnd 1 := by
    refine ⟨(toySessionK fun i => if i = 0 then 7 else 5).rnd, (toySessionK fun i => if i = 0 then 7 else 5).draws,
      (toySessionK fun i => if i = 0 then 7 else 5).zs, by rw [← hS]; rfl, hr1.symm⟩
  obtain ⟨rnd', draws', zs', hS'', hr⟩ := hS'
  rw [hS''] at H' ⊢
  generalize toyEnvSha sha512 = e at *
  obtain ⟨F, -⟩ := H.facts
  let s0 : Net := ⟨fun _ => none, fun _ => 0, fun _ _ _ => none, fun _ _ _ => false, fun _ => none⟩
  have st1 := Step.create (e := e) (S := S) s0 0 (by omega) rfl _ rfl
  generalize hs1 : ({ s0 with
    reg := (NewLocalParty e s0.reg (S.key 0) (S.args 0)).2
    stage := upd s0.stage 0 1 } : Net) = s1 at st1
  have st2 := Step.create (e := e) (S := S) s1 1 (by omega) (by rw [← hs1]; rfl) _ rfl
  generalize hs2 : ({ s1 with
    reg := (NewLocalParty e s1.reg (S.key 1) (S.args 1)).2
    stage := upd s1.stage 1 1 } : Net) = s2 at st2
  have st3 := Step.exec1 (e := e) (S := S) s2 0 (by omega) (by rw [← hs2, ← hs1]; rfl) _ rfl
  generalize hs3 : ({ s2 with
    reg := (OnSignRound1Exec e (S.rnd 0) s2.reg (S.key 0)).2
    stage := upd s2.stage 0 2
    sent := fun mk j t => if mk = .a ∧ j = 0 then dataOf (OnSignRound1Exec e (S.rnd 0) s2.reg (S.key 0)).1 else s2.sent mk j t } : Net) = s3 at st3
  have st4 := Step.exec1 (e := e) (S := S) s3 1 (by omega) (by rw [← hs3, ← hs2, ← hs1]; rfl) _ rfl
  generalize hs4 : ({ s3 with
    reg := (OnSignRound1Exec e (S.rnd 1) s3.reg (S.key 1)).2
    stage := upd s3.stage 1 2
    sent := fun mk j t => if mk = .a ∧ j = 1 then dataOf (OnSignRound1Exec e (S.rnd 1) s3.reg (S.key 1)).1 else s3.sent mk j t } : Net) = s4 at st4
  have run4 : Run e S s4 := (((Run.init _).step st1).step st2).step st3 |>.step st4
  have run4' : RunLoss e S s4 := (((RunLoss.init S _ ⟨H⟩).step st1).step st2).step st3 |>.step st4
  have q0 : s4.stage 0 = 2 := by rw [← hs4, ← hs3]; rfl
  have q1 : s4.stage 1 = 2 := by rw [← hs4]; rfl
  have hl := RunLoss.loss (e := e) (fun i => i == 0) (s4.reg.set [0] none) rnd' draws' zs' run4' (by
    intro i hi
    have : i = 0 ∨ i = 1 := by omega
    rcases this with rfl | rfl <;> omega) (by
    intro i hi hg
    have : i = 1 := by
      have : i ≠ 0 := by rintro rfl; simp at hg
      omega
    subst this
    refine ⟨?_, hr⟩
    rw [hk]
    exact set_other _ _ (by decide)) ⟨H'⟩
  obtain ⟨s', t1, t2⟩ := C116_can_finish hl
  refine ⟨s4, s', run4, q0, q1, ?_, hl, t1, t2 0 (by show 0 < S.n; omega), t2 1 (by show 1 < S.n; omega)⟩
  have := (run_inv F.toGFacts run4).sentA 0 1 (by omega) (by omega) (by omega)
  intro hn
  rw [hn] at this
  cases this

/-- nonces 3 for signer `j` and 4 for the other -/
def nonce43 (j i : Nat) : Int := if i = j then 3 else 4

/-- C116, the price, in the toy session: there is a moment when signer `j` has run round 3 and nobody has made its last
call. If the other one is lost then and comes back with nonce 4 instead of 3, the two finish, and the two answers of `j` give
its share. -/
theorem C116_lost_after_round3 : ∃ (s t : Net) (j : Nat) (H : Honest (toyEnvSha splitSha) (toySessionK fun _ => 3)) (s1 s2 : Nat),
    Run (toyEnvSha splitSha) (toySessionK fun _ => 3) s ∧ j < 2 ∧ s.stage j = 4 ∧
    s.sent .three j (1 - j) = some (wireBytes (.sg3 (intBytes (s1 : Int)))) ∧
    Steps (toyEnvSha splitSha) (toySessionK (nonce43 j)) (spec.afterLoss (fun i => i != j) s.reg s) t ∧
    t.stage 0 = 5 ∧ t.stage 1 = 5 ∧ t.sent .three j (1 - j) = some (wireBytes (.sg3 (intBytes (s2 : Int)))) ∧
    spec.recover s1 s2 1 2 = beNat (H.child j) := by
  obtain ⟨H⟩ := toyHonestK splitSha (fun _ => 3) (fun _ => by decide)
  obtain ⟨t, h1, h2⟩ := C55_can_finish H _ (Run.init fun _ => none)
  obtain ⟨s, u1, u2, j, hj, u3⟩ := before_last h1 (fun _ _ => by show 0 ≤ 4; omega) 0 (by decide) (h2 0 (by decide)) (Run.init _)
  obtain ⟨H'⟩ := toyHonestK splitSha (nonce43 j) (fun i => by unfold nonce43; split <;> decide)
  have hS : toySessionK (nonce43 j) = (toySessionK fun _ => 3).redraw (toySessionK (nonce43 j)).rnd (toySessionK (nonce43 j)).draws
    (toySessionK (nonce43 j)).zs := rfl
  rw [hS] at H'
  have hj2 : j < 2 := hj
  have hkeep : ∀ i, i < (toySessionK fun _ => 3).n → (i != j) = false →
      (toySessionK (nonce43 j)).rnd i = (toySessionK fun _ => 3).rnd i := by
    intro i _ hg
    have : i = j := by simpa using hg
    subst this
    show (⟨nonce43 i i, 2, fun _ => toyDraws⟩ : Rand1) = _
    rw [nonce43, if_pos rfl]
    rfl
  obtain ⟨s1, s2, g1, g2, g3⟩ := C116_after_round3 H H' (fun i => i != j) s u1 hkeep j hj (by simp) u3 u2 (c1 := 1) (c2 := 2) rfl rfl
    (by
      have := (split_challenge (Ed.encode (((List.range 2).map fun j => (beNat (H.child j) : Int)).sum • Ed.B))
        (H.msg.dropWhile (· = 0))).1
      exact this.symm)
    (by
      have := (split_challenge (Ed.encode (((List.range 2).map fun j => (beNat (H.child j) : Int)).sum • Ed.B))
        (H.msg.dropWhile (· = 0))).2
      have h7 : ((List.range (toySessionK fun _ => 3).n).map fun i => ((toySessionK (nonce43 j)).rnd i).k).sum = 7 := by
        show nonce43 j 0 + (nonce43 j 1 + 0) = 7
        have : j = 0 ∨ j = 1 := by omega
        rcases this with rfl | rfl <;> rfl
      rw [h7]
      exact this.symm) (by decide)
  obtain ⟨t', t1, t2⟩ := C116_can_finish (RunLoss.loss (fun i => i != j) s.reg _ _ _ (u1.noLoss H) u2
    (fun i hi hg => ⟨rfl, hkeep i hi hg⟩) ⟨H'⟩)
  refine ⟨s, t', j, H, s1, s2, u1, hj2, u3, g1 (1 - j) (by show 1 - j < 2; omega), t1, t2 0 (by show 0 < 2; omega), t2 1 (by show 1 < 2; omega), ?_, g3⟩
  exact g2 s.reg t' (fun _ _ _ => rfl) t1 (by rw [t2 j hj]; omega) (1 - j) (by show 1 - j < 2; omega)

end Tss.Onsign
