import Verif.Props.NonceReuse
/-! C116: signers that lose their state can come back. -/
namespace Tss.Onsign
open Tss Text Wire RangeProofs

/-! ### Specification -/

/-- Some signers (`gone`) have lost their parties, `r` is what is left of the registry.  Their clients start again with
creating the party.  The clients of the others forget the messages of the lost signers and all messages of round 2, and go
back to where round 1 has been run and the round-1 messages of the rest have arrived. -/
def spec.afterLoss (gone : Nat → Bool) (r : Reg) (s : Net) : Net where
  reg := r
  stage i := if gone i then 0 else min (s.stage i) 2
  sent mk j i := if gone j = false ∧ (mk = .a ∨ mk = .b) then s.sent mk j i else none
  got mk i j := if gone i = false ∧ gone j = false ∧ (mk = .a ∨ mk = .b) then s.got mk i j else false
  final := s.final

/-- Runs of honest signers in which, any number of times, signers lose their state before anybody has made its last call.
The lost signers draw everything anew; the others keep the draws of round 1 and draw anew for round 2. -/
inductive RunLoss (e : Env) : Session → Net → Prop where
  | init (S : Session) (r : Reg) (H : Nonempty (Honest e S)) :
      RunLoss e S ⟨r, fun _ => 0, fun _ _ _ => none, fun _ _ _ => false, fun _ => none⟩
  | step {S : Session} {s s' : Net} {out : Res Err Bytes} : RunLoss e S s → Step e S s out s' → RunLoss e S s'
  | noise {S : Session} {s s' : Net} : RunLoss e S s → Noise e S s s' → RunLoss e S s'
  | loss {S : Session} {s : Net} (gone : Nat → Bool) (r : Reg) (rnd' : Nat → Rand1) (draws' : Nat → Nat → Draws)
      (zs' : Nat → Nat → Int) : RunLoss e S s → (∀ i, i < S.n → s.stage i ≤ 4) →
      (∀ i, i < S.n → gone i = false → r (S.key i) = s.reg (S.key i) ∧ rnd' i = S.rnd i) →
      Nonempty (Honest e (S.redraw rnd' draws' zs')) → RunLoss e (S.redraw rnd' draws' zs') (spec.afterLoss gone r s)

/-! ### Lemmas -/

variable {e : Env} {S : Session} {rnd' : Nat → Rand1} {draws' : Nat → Nat → Draws} {zs' : Nat → Nat → Int}

theorem early_same {F : Facts e S} {F' : Facts e (S.redraw rnd' draws' zs')} {j : Nat} (hj : j < S.n) (hr : rnd' j = S.rnd j)
    (mk : Mk) (hmk : mk = .a ∨ mk = .b) (i : Nat) (hi : i < S.n) : F'.cont mk j i = F.cont mk j i := by
  obtain ⟨-, -, -, -, a5, -⟩ := facts_agree F F' j hj
  have hK : F'.K j = F.K j := by
    have c := F.cipher j hj
    have c' := F'.cipher j hj
    rw [a5, show ((S.redraw rnd' draws' zs').rnd j) = S.rnd j from hr, c] at c'
    exact (Option.some.inj c').symm
  rcases hmk with rfl | rfl
  · simp only [GFacts.cont]
    rw [hK]
  · have c := F.encNew j i hj hi
    have c' := F'.encNew j i hj hi
    rw [a5, hK, (facts_agree F F' i hi).2.2.2.2.2, show ((S.redraw rnd' draws' zs').rnd j) = S.rnd j from hr, c] at c'
    simp only [GFacts.cont]
    rw [Res.ok.inj c']

/-- A party that has not run round 3, seen after the loss. -/
theorem PI.rejoin {F : Facts e S} {F' : Facts e (S.redraw rnd' draws' zs')} {i k : Nat} {got got' : Mk → Nat → Bool} {p : Party}
    (h : PI F.toGFacts i k got p) (hi : i < S.n) (hr : rnd' i = S.rnd i)
    (hg : ∀ mk j, got' mk j = true → got mk j = true ∧ (mk = .a ∨ mk = .b) ∧ j < S.n ∧ rnd' j = S.rnd j) :
    PI F'.toGFacts i (min k 2) got' p := by
  obtain ⟨a1, a2, a3, -⟩ := facts_agree F F' i hi
  have base : PI F'.toGFacts i (min k 2) (fun _ _ => false) p := by
    by_cases h2 : 2 ≤ k
    · rw [Nat.min_eq_right h2]
      exact h.redraw h2 hi hr
    · rw [Nat.min_eq_left (by omega)]
      constructor
      · exact h.index
      · rw [a1]; exact h.ids
      · rw [F'.mOf_eq hi, a2]; exact h.m_eq hi
      · rw [a3]; exact h.keys
      · exact h.lm
      · exact h.ls1
      · exact h.ls2
      · exact h.lkc
      · intro hk; omega
      · intro hk; omega
      · intro hk; omega
      · intro hk; omega
      · intro hk; omega
      · intro mk hk; cases mk <;> simp only [Mk.stage] at hk <;> omega
      · intro mk j hj; cases hj
  exact { base with
    recv := fun mk j hj => by
      obtain ⟨g1, g2, g3, g4⟩ := hg mk j hj
      rw [early_same (F := F) g3 g4 mk g2 i hi]
      exact h.recv mk j g1 }

theorem loss_inv {F : Facts e S} (F' : Facts e (S.redraw rnd' draws' zs')) {s : Net} (hs : NI F.toGFacts s) (gone : Nat → Bool)
    (r : Reg) (hf : ∀ i, i < S.n → s.final i = none)
    (hb : ∀ mk i j, s.got mk i j = true → j < S.n)
    (hk : ∀ i, i < S.n → gone i = false → r (S.key i) = s.reg (S.key i) ∧ rnd' i = S.rnd i) :
    NI F'.toGFacts (spec.afterLoss gone r s) := by
  have hsent : ∀ mk j i w, (spec.afterLoss gone r s).sent mk j i = some w → gone j = false ∧ (mk = .a ∨ mk = .b) ∧
      s.sent mk j i = some w := by
    intro mk j i w h
    simp only [spec.afterLoss] at h
    split at h
    · next hc => exact ⟨hc.1, hc.2, h⟩
    · cases h
  have hst : ∀ i, (spec.afterLoss gone r s).stage i ≤ 2 := by
    intro i
    simp only [spec.afterLoss]
    split <;> omega
  constructor
  · intro i hi
    by_cases hg : gone i = true
    · left; simp [spec.afterLoss, hg]
    · have hg' : gone i = false := by simpa using hg
      have e1 : (spec.afterLoss gone r s).stage i = min (s.stage i) 2 := by simp [spec.afterLoss, hg']
      rcases hs.party i hi with h0 | ⟨p, p1, p2⟩
      · left; rw [e1, h0]; rfl
      · right
        rw [e1]
        obtain ⟨k1, k2⟩ := hk i hi hg'
        refine ⟨p, by rw [← p1]; exact k1, p2.rejoin hi k2 ?_⟩
        intro mk j hj
        have hj' : (if gone i = false ∧ gone j = false ∧ (mk = .a ∨ mk = .b) then s.got mk i j else false) = true := hj
        split at hj'
        · next hc => exact ⟨hj', hc.2.2, hb mk i j hj', (hk j (hb mk i j hj') hc.2.1).2⟩
        · cases hj'
  · intro i hi; have := hst i; omega
  · intro mk j i w hj hi h
    obtain ⟨h1, h2, h4⟩ := hsent mk j i w h
    rw [early_same (F := F) hj (hk j hj h1).2 mk h2 i hi]
    exact hs.sent mk j i w hj hi h4
  · intro j i hj hi h
    have hg : gone j = false := by
      by_contra hc
      have : gone j = true := by simpa using hc
      simp [spec.afterLoss, this] at h
    have h2 : 2 ≤ s.stage j := by
      simp only [spec.afterLoss, hg] at h
      simp at h
      exact h
    have := hs.sentA j i hj hi h2
    simpa [spec.afterLoss, hg] using this
  · intro j i hj hi h; have := hst j; omega
  · intro i hi h mk j
    simp only [spec.afterLoss] at h ⊢
    split
    · next hc =>
      rw [hc.1] at h
      simp at h
      exact hs.early i hi h mk j
    · rfl
  · intro i out hi h
    have : s.final i = some out := h
    rw [hf i hi] at this
    cases this
  · intro i hi h; have := hst i; omega

/-- Bookkeeping of the clients: a result is there only after the last call, and messages come from signers. -/
structure Books (S : Session) (s : Net) : Prop where
  final : ∀ i, i < S.n → s.stage i ≠ 5 → s.final i = none
  got : ∀ mk i j, s.got mk i j = true → j < S.n

theorem Books.step {s s' : Net} {out : Res Err Bytes} (hb : Books S s) (h : Step e S s out s') : Books S s' := by
  have keep : ∀ {i k : Nat}, k ≠ 5 → s.stage i ≠ 5 → ∀ j, j < S.n → upd s.stage i k j ≠ 5 → s.final j = none := by
    intro i k hk hi j hj hs
    by_cases hji : j = i
    · rw [hji] at hj ⊢; exact hb.final i hj hi
    · rw [upd_other _ _ hji] at hs; exact hb.final j hj hs
  cases h with
  | create i hi h q hq => exact ⟨keep (by omega) (by omega), hb.got⟩
  | exec1 i hi h q hq => exact ⟨keep (by omega) (by omega), hb.got⟩
  | exec2 i hi h ha hb' q hq => exact ⟨keep (by omega) (by omega), hb.got⟩
  | exec3 i hi h hr q hq => exact ⟨keep (by omega) (by omega), hb.got⟩
  | final i hi h hr q hq =>
    refine ⟨fun j hjn hj => ?_, hb.got⟩
    by_cases hji : j = i
    · exact absurd (by rw [hji]; exact upd_same _ _ _) hj
    · have h1 : upd s.stage i 5 j ≠ 5 := hj
      rw [upd_other _ _ hji] at h1
      show upd s.final i (dataOf q.1) j = none
      rw [upd_other _ _ hji]
      exact hb.final j hjn h1
  | fetch1 i j hi hj h q hq => exact ⟨hb.final, hb.got⟩
  | fetch2 i j hi hj h q hq => exact ⟨hb.final, hb.got⟩
  | deliver mk i j hi hj h w hw q hq =>
    refine ⟨hb.final, fun mk' i' j' hg => ?_⟩
    have hg' : (if mk' = mk ∧ i' = i ∧ j' = j then true else s.got mk' i' j') = true := hg
    split at hg'
    · next hc => rw [hc.2.2]; exact hj
    · exact hb.got _ _ _ hg'

/-- An honest run is one of these. -/
theorem Run.noLoss {s : Net} (h : Run e S s) (H : Honest e S) : RunLoss e S s := by
  induction h with
  | init r => exact .init _ r ⟨H⟩
  | step _ h ih => exact .step ih h
  | noise _ h ih => exact .noise ih h

theorem run_books {s : Net} (h : Run e S s) : Books S s := by
  induction h with
  | init r => exact ⟨fun _ _ _ => rfl, fun _ _ _ h => by cases h⟩
  | step _ hs ih => exact ih.step hs
  | noise _ hn ih => cases hn <;> exact ⟨ih.final, ih.got⟩

theorem steps_inv {F : GFacts e S} {s t : Net} (hs : NI F s) (h : Steps e S s t) : NI F t := by
  induction h with
  | refl => exact hs
  | head h _ ih => exact ih (gstep_ok hs h).2

/-- In all these runs the invariant of honest runs holds, for the session with the draws in use. -/
theorem loss_run {s : Net} (h : RunLoss e S s) : Nonempty (Honest e S) ∧ (∀ F : Facts e S, NI F.toGFacts s) ∧ Books S s := by
  induction h with
  | init S r H => exact ⟨H, fun F => run_inv F.toGFacts (Run.init r), ⟨fun _ _ _ => rfl, fun _ _ _ h => by cases h⟩⟩
  | step _ hs ih => exact ⟨ih.1, fun F => (gstep_ok (ih.2.1 F) hs).2, ih.2.2.step hs⟩
  | noise _ hn ih =>
    refine ⟨ih.1, fun F => noise_ok (ih.2.1 F) hn, ?_⟩
    cases hn <;> exact ⟨ih.2.2.final, ih.2.2.got⟩
  | @loss S s gone r rnd' draws' zs' _ h3 hk H' ih =>
    obtain ⟨⟨H⟩, hF, hb⟩ := ih
    obtain ⟨F, -⟩ := H.facts
    have hf : ∀ i, i < S.n → s.final i = none := fun i hi => hb.final i hi (by have := h3 i hi; omega)
    refine ⟨H', fun F' => loss_inv F' (hF F) gone r hf hb.got hk, ⟨?_, ?_⟩⟩
    · exact fun i hi _ => hf i hi
    · intro mk i j hg
      have hg' : (if gone i = false ∧ gone j = false ∧ (mk = .a ∨ mk = .b) then s.got mk i j else false) = true := hg
      split at hg'
      · exact hb.got mk i j hg'
      · cases hg'

/-! ### C116 -/

/-- C116. However often signers lose their state and come back, every call succeeds. -/
theorem C116_every_call_ok {s s' : Net} {out : Res Err Bytes} (hr : RunLoss e S s) (h : Step e S s out s') :
    ∃ b, out = .ok b := by
  obtain ⟨⟨H⟩, hF, -⟩ := loss_run hr
  obtain ⟨F, -⟩ := H.facts
  exact (step_ok (hF F) h).1

/-- C116. From every such state all signers can finish. -/
theorem C116_can_finish {s : Net} (hr : RunLoss e S s) : ∃ s', Steps e S s s' ∧ ∀ i, i < S.n → s'.stage i = 5 := by
  obtain ⟨⟨H⟩, hF, -⟩ := loss_run hr
  obtain ⟨F, -⟩ := H.facts
  exact can_finish F.toGFacts s (hF F)

/-- C116. All that finish return the same record, with a signature (RFC 8032) of the message, without its leading zero
bytes, under the sum of the derived shares times the base point. -/
theorem C116_agreement (H : Honest e S) : ∃ sd : SigData,
    (∀ s, RunLoss e S s → ∀ i, i < S.n → s.stage i = 5 → ∃ p out, s.reg (S.key i) = some p ∧ s.final i = some out ∧
      e.jsonSig sd = some out ∧
      p.keys.eddsaPub = some (Ed.lawful.pt (((List.range S.n).map fun j => (beNat (H.child j) : Int)).sum • Ed.B))) ∧
    spec.Verifies e.sha512 (Ed.encode (((List.range S.n).map fun j => (beNat (H.child j) : Int)).sum • Ed.B))
      (H.msg.dropWhile (· = 0)) sd.signature ∧ sd.m = H.msg.dropWhile (· = 0) := by
  obtain ⟨sd, h1, h2, -, -, -, h3⟩ := agreement_inv H
  exact ⟨sd, fun s hr => h1 s (loss_run hr).2.1, h2, h3⟩

/-- C116. Nobody has a result before its last call, and nothing is lost: when signers lose their state there is no result
yet. -/
theorem C116_no_result_before {s : Net} (hr : RunLoss e S s) (i : Nat) (hi : i < S.n) (h : s.stage i ≠ 5) : s.final i = none :=
  (loss_run hr).2.2.final i hi h

/-- C116, the price. If a signer `i` that keeps its state has already run round 3 when another loses its own, then going on
with a lost signer's new draws makes it answer a second time with the same nonce: the two answers, which everybody gets,
give its share to everybody, unless the two challenges are equal. -/
theorem C116_after_round3 (H : Honest e S) (H' : Honest e (S.redraw rnd' draws' zs')) (gone : Nat → Bool) (s : Net) (hr : Run e S s)
    (hk : ∀ i, i < S.n → gone i = false → rnd' i = S.rnd i) (i : Nat) (hi : i < S.n) (hg : gone i = false) (h4 : s.stage i = 4)
    (hall : ∀ j, j < S.n → s.stage j ≤ 4) {A : Ed.Point} {M : Bytes} {c1 c2 : Nat}
    (hA : A = ((List.range S.n).map fun j => (beNat (H.child j) : Int)).sum • Ed.B) (hM : M = H.msg.dropWhile (· = 0))
    (hc1 : c1 = spec.challenge e.sha512 (Ed.encode (((List.range S.n).map fun j => (S.rnd j).k).sum • Ed.B)) (Ed.encode A) M)
    (hc2 : c2 = spec.challenge e.sha512 (Ed.encode (((List.range S.n).map fun j => (rnd' j).k).sum • Ed.B)) (Ed.encode A) M)
    (hne : c1 ≠ c2) :
    ∃ s1 s2 : Nat, (∀ j, j < S.n → s.sent .three i j = some (wireBytes (.sg3 (intBytes (s1 : Int))))) ∧
      (∀ r t, (∀ j, j < S.n → gone j = false → r (S.key j) = s.reg (S.key j)) →
        Steps e (S.redraw rnd' draws' zs') (spec.afterLoss gone r s) t → 4 ≤ t.stage i →
        ∀ j, j < S.n → t.sent .three i j = some (wireBytes (.sg3 (intBytes (s2 : Int))))) ∧
      spec.recover s1 s2 c1 c2 = beNat (H.child i) := by
  obtain ⟨F, f1, f2, f3, f4⟩ := H.facts
  obtain ⟨F', -⟩ := H'.facts
  have hs := run_inv F.toGFacts hr
  have hb := run_books hr
  have hf : ∀ j, j < S.n → s.final j = none := fun j hj => hb.final j hj (by have := hall j hj; omega)
  have hAF : F.A = A := by rw [F.A_eq, f4, hA]; rfl
  have hmF : intBytes F.m = M := by rw [f3, hM, C56_signed_bytes]
  have hA' : F'.A = A := by
    rw [← hAF, F'.A_eq, F.A_eq]
    congr 2
    exact List.map_congr_left fun j hj => (facts_agree F F' j (List.mem_range.mp hj)).2.2.2.1
  obtain ⟨-, b2, -, b4, -⟩ := facts_agree F F' i hi
  have l1 : F.lam = c1 := by rw [F.lam_eq, hAF, hmF, hc1]; rfl
  have l2 : F'.lam = c2 := by rw [F'.lam_eq, hA', b2, hmF, hc2]; rfl
  have hx : (F.x i).natAbs = beNat (H.child i) := by rw [f4]; rfl
  have hlt : beNat (H.child i) < Ed.ord := by
    have := H.x_lt i hi
    have h2 : H.x i = ((beNat (H.child i) : Nat) : Int) := rfl
    rw [h2] at this
    have h3 : ((beNat (H.child i) : Nat) : Int) < ((Ed.ord : Nat) : Int) := this
    exact_mod_cast h3
  refine ⟨F.sg i, F'.sg i, ?_, ?_, ?_⟩
  · intro j hj
    obtain ⟨w, hw⟩ := Option.isSome_iff_exists.mp (hs.sentC i j hi hj (by omega))
    rw [hw, hs.sent .three i j w hi hj hw]
    rfl
  · intro r t hreg hst h4' j hj
    have h0 : NI F'.toGFacts (spec.afterLoss gone r s) :=
      loss_inv F' hs gone r hf hb.got fun a ha hga => ⟨hreg a ha hga, hk a ha hga⟩
    have ht := steps_inv h0 hst
    obtain ⟨w, hw⟩ := Option.isSome_iff_exists.mp (ht.sentC i j hi hj h4')
    rw [hw, ht.sent .three i j w hi hj hw]
    rfl
  · rw [F.sg_eq hi, F'.sg_eq hi, l1, l2, b4, hx, show ((S.redraw rnd' draws' zs').rnd i) = S.rnd i from hk i hi hg,
      recover_eq (hc1 ▸ challenge_lt _ _ _ _) (hc2 ▸ challenge_lt _ _ _ _) hne, Nat.mod_eq_of_lt hlt]

/-- C116. A signer that is lost after all have run round 3 is not needed any more: for every other signer `i`, whatever has
become of the rest of the registry, the round-3 messages that were sent are enough; handing them over and making the last
call gives a signature of the message. -/
theorem C116_not_needed (H : Honest e S) : ∃ sd : SigData,
    spec.Verifies e.sha512 (Ed.encode (((List.range S.n).map fun j => (beNat (H.child j) : Int)).sum • Ed.B))
      (H.msg.dropWhile (· = 0)) sd.signature ∧
    ∀ s, Run e S s → (∀ j, j < S.n → 4 ≤ s.stage j) → ∀ i, i < S.n → s.stage i = 4 → ∀ r : Reg, r (S.key i) = s.reg (S.key i) →
      ∃ w : Nat → Bytes, (∀ j, j < S.n → s.sent .three j i = some (w j)) ∧ ∃ out, e.jsonSig sd = some out ∧
        (OnsignFinalExec e (runOps e ((List.range S.n).map fun (j : Nat) => Op.acc3 (S.key i) (j : Int) (b64Encode (w j))) r)
          (S.key i)).1 = .ok out := by
  obtain ⟨F, f1, f2, f3, f4⟩ := H.facts
  have hA : F.A = ((List.range S.n).map fun j => (beNat (H.child j) : Int)).sum • Ed.B := by
    rw [F.A_eq, f4]; rfl
  have hm : intBytes F.m = H.msg.dropWhile (· = 0) := by rw [f3, C56_signed_bytes]
  refine ⟨F.sig, ?_, ?_⟩
  · rw [← hA, ← hm]; exact (sig_verifies F).1
  intro s hr hall i hi h4 r hreg
  have hs := run_inv F.toGFacts hr
  refine ⟨fun j => wireBytes (F.cont .three j i), ?_, ?_⟩
  · intro j hj
    obtain ⟨w, hw⟩ := Option.isSome_iff_exists.mp (hs.sentC j i hj hi (hall j hj))
    rw [hw, hs.sent .three j i w hj hi hw]
  · obtain ⟨p, p1, p2⟩ := hs.stage_ne hi (by omega)
    rw [h4] at p2
    obtain ⟨p', a1, a2⟩ := deliver_all (F := F) .three hi (List.range S.n) r p _ (fun j hj => List.mem_range.mp hj)
      (hreg.trans p1) p2
    obtain ⟨p'', out, b1, b2, -⟩ := a2.final hi (by intro j hj _; simp [hj])
    refine ⟨out, b2, ?_⟩
    have a1' : runOps e ((List.range S.n).map fun (j : Nat) => Op.acc3 (S.key i) (j : Int)
      (b64Encode (wireBytes (F.cont .three j i)))) r (S.key i) = some p' := a1
    unfold OnsignFinalExec
    rw [withParty_some _ _ a1', b1]

/-! ### Concrete cases -/

/-- On the way to the end there is a moment when somebody has run round 3 and nobody has made its last call. -/
theorem before_last {s t : Net} (h : Steps e S s t) (h0 : ∀ j, j < S.n → s.stage j ≤ 4) (i : Nat) (hi : i < S.n)
    (h5 : t.stage i = 5) (hr : Run e S s) : ∃ u, Run e S u ∧ (∀ j, j < S.n → u.stage j ≤ 4) ∧ ∃ j, j < S.n ∧ u.stage j = 4 := by
  induction h with
  | refl => have := h0 i hi; omega
  | @head a b c out hst _ ih =>
    by_cases hb : ∀ j, j < S.n → b.stage j ≤ 4
    · exact ih hb h5 (Run.step hr hst)
    · have key : ∀ {x k : Nat} {f : Nat → Nat}, f = upd a.stage x k → k ≤ 4 → (∀ j, j < S.n → f j ≤ 4) := by
        rintro x k f rfl hk j hj
        by_cases hjx : j = x
        · rw [hjx, upd_same]; exact hk
        · rw [upd_other _ _ hjx]; exact h0 j hj
      cases hst with
      | final j hj h4 hr' q hq => exact ⟨a, hr, h0, j, hj, h4⟩
      | create => exact absurd (key rfl (by omega)) hb
      | exec1 => exact absurd (key rfl (by omega)) hb
      | exec2 => exact absurd (key rfl (by omega)) hb
      | exec3 => exact absurd (key rfl (by omega)) hb
      | fetch1 => exact absurd h0 hb
      | fetch2 => exact absurd h0 hb
      | deliver => exact absurd h0 hb

end Tss.Onsign
