import Verif.Lemmas.OnsignRun
/-! Honest signing: the invariant of the network. -/
namespace Tss.Onsign
open Tss Text Wire RangeProofs
open _root_.Tss.Keygen (forJ)

variable {e : Env} {S : Session} (F : GFacts e S)

/-- what holds in every state of an honest run -/
structure NI (s : Net) : Prop where
  party : ∀ i, i < S.n → s.stage i = 0 ∨ ∃ p, s.reg (S.key i) = some p ∧ PI F i (s.stage i) (fun mk j => s.got mk i j) p
  le5 : ∀ i, i < S.n → s.stage i ≤ 5
  sent : ∀ mk j i w, j < S.n → i < S.n → s.sent mk j i = some w → w = wireBytes (F.cont mk j i)
  sentA : ∀ j i, j < S.n → i < S.n → 2 ≤ s.stage j → (s.sent .a j i).isSome
  sentC : ∀ j i, j < S.n → i < S.n → 4 ≤ s.stage j → (s.sent .three j i).isSome
  early : ∀ i, i < S.n → s.stage i = 0 → ∀ mk j, s.got mk i j = false
  final : ∀ i out, i < S.n → s.final i = some out → e.jsonSig (F.sigOf i) = some out
  final_some : ∀ i, i < S.n → s.stage i = 5 → F.Fits i → (s.final i).isSome

variable {F}

theorem upd_same {α : Type} (f : Nat → α) (i : Nat) (v : α) : upd f i v i = v := by simp [upd]
theorem upd_other {α : Type} (f : Nat → α) {i j : Nat} (v : α) (h : j ≠ i) : upd f i v j = f j := by simp [upd, h]

theorem NI.party_upd {s : Net} (hs : NI F s) {i : Nat} (hi : i < S.n) {p' : Party} {k : Nat}
    (hp : PI F i k (fun mk j => s.got mk i j) p') : ∀ j, j < S.n → upd s.stage i k j = 0 ∨
      ∃ p, (s.reg.set (S.key i) (some p')) (S.key j) = some p ∧ PI F j (upd s.stage i k j) (fun mk j' => s.got mk j j') p := by
  intro j hj
  by_cases hji : j = i
  · subst hji
    rw [upd_same]
    exact .inr ⟨p', set_same _ _ _, hp⟩
  · rw [upd_other _ _ hji, set_other _ _ (fun e => hji (F.keyInj j i hj hi e))]
    exact hs.party j hj

theorem NI.stage_ne {s : Net} (hs : NI F s) {i : Nat} (hi : i < S.n) (h : 1 ≤ s.stage i) :
    ∃ p, s.reg (S.key i) = some p ∧ PI F i (s.stage i) (fun mk j => s.got mk i j) p := by
  rcases hs.party i hi with h1 | h1
  · omega
  · exact h1

/-- a getter returns the stored message -/
theorem getMsg_ok (l : List Bytes) (i : Nat) (h : i < l.length) : getMsg l (i : Int) = .ok (l.getD i []) := by
  unfold getMsg
  rw [if_pos ⟨by omega, by omega⟩, Int.toNat_natCast]

/-- accepting an honest message -/
theorem accept_honest {i k j : Nat} {got : Mk → Nat → Bool} {p : Party} (h : PI F i k got p) (mk : Mk) (r : Reg) (hi : i < S.n)
    (hj : j < S.n) (hp : r (S.key i) = some p) :
    mk.accept r (S.key i) j (b64Encode (wireBytes (F.cont mk j i))) =
      (.ok (), r.set (S.key i) (some (mk.put p ((mk.slots p).set j (wireBytes (F.cont mk j i)))))) := by
  have hdec : b64Decode (b64Encode (wireBytes (F.cont mk j i))) = some (wireBytes (F.cont mk j i)) := b64_round_trip _
  have hparse := F.parse mk j i hj hi
  have hl := h.lm mk
  cases mk
  · show OnSignRound1MsgAccept _ _ _ _ = _
    unfold OnSignRound1MsgAccept
    rw [withParty_some _ _ hp]
    have : r1Accept (j : Int) (b64Encode (wireBytes (F.cont .a j i))) p =
        (.ok (), Mk.a.put p ((Mk.a.slots p).set j (wireBytes (F.cont .a j i)))) := by
      unfold r1Accept
      rw [hdec]
      simp only
      rw [hparse]
      simp only [GFacts.cont]
      rw [if_pos ⟨by omega, by rw [show p.m11.length = S.n from hl]; omega⟩, Int.toNat_natCast]
      rfl
    rw [this]
  · show OnSignRound1MsgAccept _ _ _ _ = _
    unfold OnSignRound1MsgAccept
    rw [withParty_some _ _ hp]
    have : r1Accept (j : Int) (b64Encode (wireBytes (F.cont .b j i))) p =
        (.ok (), Mk.b.put p ((Mk.b.slots p).set j (wireBytes (F.cont .b j i)))) := by
      unfold r1Accept
      rw [hdec]
      simp only
      rw [hparse]
      simp only [GFacts.cont]
      rw [if_pos ⟨by omega, by rw [show p.m12.length = S.n from hl]; omega⟩, Int.toNat_natCast]
      rfl
    rw [this]
  · show OnSignRound2MsgAccept _ _ _ _ = _
    unfold OnSignRound2MsgAccept
    rw [withParty_some _ _ hp]
    unfold accept
    rw [hdec]
    simp only
    rw [if_pos ⟨by omega, by rw [show p.m2.length = S.n from hl]; omega⟩, Int.toNat_natCast, hparse]
    rfl
  · show OnSignRound3MsgAccept _ _ _ _ = _
    unfold OnSignRound3MsgAccept
    rw [withParty_some _ _ hp]
    unfold accept
    rw [hdec]
    simp only
    rw [if_pos ⟨by omega, by rw [show p.m3.length = S.n from hl]; omega⟩, Int.toNat_natCast, hparse]
    rfl

/-- the move from `s` to `s'` is the last call of signer `i` -/
def LastCall (S : Session) (s s' : Net) (i : Nat) : Prop := i < S.n ∧ s.stage i = 4 ∧ s'.stage i = 5

theorem not_last {s s' : Net} {i k : Nat} (h : s'.stage = upd s.stage i k) (hk : k ≠ 5) : ∀ j, ¬ LastCall S s s' j := by
  rintro j ⟨-, h4, h5⟩
  rw [h] at h5
  simp only [upd] at h5
  split at h5 <;> omega

theorem not_last_same {s s' : Net} (h : s'.stage = s.stage) : ∀ j, ¬ LastCall S s s' j := by
  rintro j ⟨-, h4, h5⟩
  rw [h] at h5
  omega

/-- Every call of honest signers keeps the invariant, and every call but the last ones succeeds; the last call of
a signer succeeds if the answers fit what it signs, and otherwise the check of the signature fails. -/
theorem gstep_ok {s s' : Net} {out : Res Err Bytes} (hs : NI F s) (h : Step e S s out s') :
    (((∀ i, ¬ LastCall S s s' i) → ∃ b, out = .ok b) ∧
      ∀ i, LastCall S s s' i → (F.Fits i → ∃ b, out = .ok b) ∧ (¬ F.Fits i → out = .err .verifyFailed)) ∧ NI F s' := by
  have easy : ∀ {o : Res Err Bytes} {t : Net}, (∃ b, o = .ok b) → (∀ i, ¬ LastCall S s t i) →
      (((∀ i, ¬ LastCall S s t i) → ∃ b, o = .ok b) ∧
      ∀ i, LastCall S s t i → (F.Fits i → ∃ b, o = .ok b) ∧ (¬ F.Fits i → o = .err .verifyFailed)) :=
    fun h1 h2 => ⟨fun _ => h1, fun i h => absurd h (h2 i)⟩
  cases h with
  | create i hi h q hq =>
    rw [F.create i hi] at hq
    rw [hq]
    refine ⟨easy ⟨_, rfl⟩ (not_last rfl (by decide)), ?_⟩
    have hp := hs.party_upd hi (PI.fresh (F := F) i (fun mk j => s.got mk i j) (fun mk j => hs.early i hi h mk j))
    refine ⟨hp, ?_, hs.sent, ?_, ?_, ?_, hs.final, ?_⟩
    · intro j hj; simp only [upd]; split
      · omega
      · exact hs.le5 j hj
    · intro j k hj hk; simp only [upd]; split
      · intro h; omega
      · exact hs.sentA j k hj hk
    · intro j k hj hk; simp only [upd]; split
      · intro h; omega
      · exact hs.sentC j k hj hk
    · intro j hj; simp only [upd]; split
      · intro h; omega
      · exact hs.early j hj
    · intro j hj; simp only [upd]; split
      · intro h; omega
      · exact hs.final_some j hj
  | exec1 i hi h q hq =>
    obtain ⟨p, h1, h2⟩ := hs.stage_ne hi (by omega)
    rw [h] at h2
    obtain ⟨p', a, b⟩ := h2.exec1 hi
    have hq' : q = (.ok (wireBytes (F.cont .a i i)), s.reg.set (S.key i) (some p')) := by
      rw [hq]; unfold OnSignRound1Exec; rw [withParty_some _ _ h1, a]
    rw [hq']
    refine ⟨easy ⟨_, rfl⟩ (not_last rfl (by decide)), ?_⟩
    refine ⟨hs.party_upd hi b, ?_, ?_, ?_, ?_, ?_, hs.final, ?_⟩
    · intro j hj; simp only [upd]; split
      · omega
      · exact hs.le5 j hj
    · intro mk j k w hj hk hw
      simp only at hw
      split at hw
      · next hc => obtain ⟨rfl, rfl⟩ := hc; simp only [dataOf, Option.some.injEq] at hw; rw [← hw]; rfl
      · exact hs.sent mk j k w hj hk hw
    · intro j k hj hk; simp only [upd, true_and]; split
      · intro _; rfl
      · exact hs.sentA j k hj hk
    · intro j k hj hk; simp only [upd, reduceCtorEq, false_and, if_false]; split
      · intro h; omega
      · exact hs.sentC j k hj hk
    · intro j hj; simp only [upd]; split
      · intro h; omega
      · exact hs.early j hj
    · intro j hj; simp only [upd]; split
      · intro h; omega
      · exact hs.final_some j hj
  | exec2 i hi h ha hb q hq =>
    obtain ⟨p, h1, h2⟩ := hs.stage_ne hi (by omega)
    rw [h] at h2
    obtain ⟨p', a, b⟩ := h2.exec2 hi ha hb
    have hq' : q = (.ok (), s.reg.set (S.key i) (some p')) := by
      rw [hq]; unfold OnsignRound2Exec; rw [withParty_some _ _ h1, a]
    rw [hq']
    refine ⟨easy ⟨_, rfl⟩ (not_last rfl (by decide)), ?_⟩
    refine ⟨hs.party_upd hi b, ?_, hs.sent, ?_, ?_, ?_, hs.final, ?_⟩
    · intro j hj; simp only [upd]; split
      · omega
      · exact hs.le5 j hj
    · intro j k hj hk; simp only [upd]; split
      · next hji => intro _; subst hji; exact hs.sentA j k hj hk (by omega)
      · exact hs.sentA j k hj hk
    · intro j k hj hk; simp only [upd]; split
      · intro h; omega
      · exact hs.sentC j k hj hk
    · intro j hj; simp only [upd]; split
      · intro h; omega
      · exact hs.early j hj
    · intro j hj; simp only [upd]; split
      · intro h; omega
      · exact hs.final_some j hj
  | exec3 i hi h hr q hq =>
    obtain ⟨p, h1, h2⟩ := hs.stage_ne hi (by omega)
    rw [h] at h2
    obtain ⟨p', a, b⟩ := h2.exec3 hi hr
    have hq' : q = (.ok (wireBytes (F.cont .three i i)), s.reg.set (S.key i) (some p')) := by
      rw [hq]; unfold OnsignRound3Exec; rw [withParty_some _ _ h1, a]
    rw [hq']
    refine ⟨easy ⟨_, rfl⟩ (not_last rfl (by decide)), ?_⟩
    refine ⟨hs.party_upd hi b, ?_, ?_, ?_, ?_, ?_, hs.final, ?_⟩
    · intro j hj; simp only [upd]; split
      · omega
      · exact hs.le5 j hj
    · intro mk j k w hj hk hw
      simp only at hw
      split at hw
      · next hc => obtain ⟨rfl, rfl⟩ := hc; simp only [dataOf, Option.some.injEq] at hw; rw [← hw]; rfl
      · exact hs.sent mk j k w hj hk hw
    · intro j k hj hk; simp only [upd, reduceCtorEq, false_and, if_false]; split
      · next hji => intro _; subst hji; exact hs.sentA j k hj hk (by omega)
      · exact hs.sentA j k hj hk
    · intro j k hj hk; simp only [upd, true_and]; split
      · intro _; rfl
      · exact hs.sentC j k hj hk
    · intro j hj; simp only [upd]; split
      · intro h; omega
      · exact hs.early j hj
    · intro j hj; simp only [upd]; split
      · intro h; omega
      · exact hs.final_some j hj
  | final i hi h hr q hq =>
    obtain ⟨p, h1, h2⟩ := hs.stage_ne hi (by omega)
    rw [h] at h2
    obtain ⟨g1, g2⟩ := h2.finish hi hr
    have only : ∀ {r : Reg} {f : Nat → Option Bytes} (j : Nat), LastCall S s ⟨r, upd s.stage i 5, s.sent, s.got, f⟩ j → j = i := by
      rintro r f j ⟨-, h4, h5⟩
      by_contra hne
      have h5' : upd s.stage i 5 j = 5 := h5
      rw [upd_other _ _ hne] at h5'
      omega
    by_cases hc : F.Fits i
    · obtain ⟨p', o, a, c, b⟩ := g1 hc
      have hq' : q = (.ok o, s.reg.set (S.key i) (some p')) := by
        rw [hq]; unfold OnsignFinalExec; rw [withParty_some _ _ h1, a]
      rw [hq']
      refine ⟨⟨fun _ => ⟨_, rfl⟩, fun j hj => ⟨fun _ => ⟨_, rfl⟩, fun hn => absurd (by rw [only j hj]; exact hc) hn⟩⟩, ?_⟩
      refine ⟨hs.party_upd hi b, ?_, hs.sent, ?_, ?_, ?_, ?_, ?_⟩
      · intro j hj; simp only [upd]; split
        · omega
        · exact hs.le5 j hj
      · intro j k hj hk; simp only [upd]; split
        · next hji => intro _; subst hji; exact hs.sentA j k hj hk (by omega)
        · exact hs.sentA j k hj hk
      · intro j k hj hk; simp only [upd]; split
        · next hji => intro _; subst hji; exact hs.sentC j k hj hk (by omega)
        · exact hs.sentC j k hj hk
      · intro j hj; simp only [upd]; split
        · intro h; omega
        · exact hs.early j hj
      · intro j out hj ho
        simp only [upd] at ho
        split at ho
        · next hji => simp only [dataOf, Option.some.injEq] at ho; rw [← ho, hji]; exact c
        · exact hs.final j out hj ho
      · intro j hj; simp only [upd]; split
        · intro _ _; rfl
        · exact hs.final_some j hj
    · obtain ⟨p', a, b⟩ := g2 hc
      have hq' : q = (.err .verifyFailed, s.reg.set (S.key i) (some p')) := by
        rw [hq]; unfold OnsignFinalExec; rw [withParty_some _ _ h1, a]
      rw [hq']
      refine ⟨⟨fun hn => absurd ⟨hi, h, upd_same _ _ _⟩ (hn i), fun j hj => ⟨fun he => absurd (by rw [← only j hj]; exact he) hc,
        fun _ => rfl⟩⟩, ?_⟩
      refine ⟨hs.party_upd hi b, ?_, hs.sent, ?_, ?_, ?_, ?_, ?_⟩
      · intro j hj; simp only [upd]; split
        · omega
        · exact hs.le5 j hj
      · intro j k hj hk; simp only [upd]; split
        · next hji => intro _; subst hji; exact hs.sentA j k hj hk (by omega)
        · exact hs.sentA j k hj hk
      · intro j k hj hk; simp only [upd]; split
        · next hji => intro _; subst hji; exact hs.sentC j k hj hk (by omega)
        · exact hs.sentC j k hj hk
      · intro j hj; simp only [upd]; split
        · intro h; omega
        · exact hs.early j hj
      · intro j out hj ho
        simp only [upd] at ho
        split at ho
        · simp only [dataOf, reduceCtorEq] at ho
        · exact hs.final j out hj ho
      · intro j hj; simp only [upd]; split
        · next hji => intro _ hf; rw [hji] at hf; exact absurd hf hc
        · exact hs.final_some j hj
  | fetch1 i j hi hj h q hq =>
    obtain ⟨p, h1, h2⟩ := hs.stage_ne hj (by omega)
    have hq' : q = (.ok (wireBytes (F.cont .b j i)), s.reg) := by
      rw [hq]; unfold GetRound1Msg2
      rw [withParty_some _ _ h1, getMsg_ok _ _ (by rw [h2.ls1]; exact hi), h2.send1 h i hi, set_self _ _ _ h1]
    rw [hq']
    refine ⟨easy ⟨_, rfl⟩ (not_last_same rfl), hs.party, hs.le5, ?_, ?_, ?_, hs.early, hs.final, hs.final_some⟩
    · intro mk j' k w hj' hk hw
      simp only at hw
      split at hw
      · next hc => obtain ⟨rfl, rfl, rfl⟩ := hc; simp only [dataOf, Option.some.injEq] at hw; rw [← hw]
      · exact hs.sent mk j' k w hj' hk hw
    · intro j' k hj' hk; simp only [reduceCtorEq, false_and, if_false]; exact hs.sentA j' k hj' hk
    · intro j' k hj' hk; simp only [reduceCtorEq, false_and, if_false]; exact hs.sentC j' k hj' hk
  | fetch2 i j hi hj h q hq =>
    obtain ⟨p, h1, h2⟩ := hs.stage_ne hj (by omega)
    have hq' : q = (.ok (wireBytes (F.cont .two j i)), s.reg) := by
      rw [hq]; unfold GetRound2Msg
      rw [withParty_some _ _ h1, getMsg_ok _ _ (by rw [h2.ls2]; exact hi), h2.send2 h i hi, set_self _ _ _ h1]
    rw [hq']
    refine ⟨easy ⟨_, rfl⟩ (not_last_same rfl), hs.party, hs.le5, ?_, ?_, ?_, hs.early, hs.final, hs.final_some⟩
    · intro mk j' k w hj' hk hw
      simp only at hw
      split at hw
      · next hc => obtain ⟨rfl, rfl, rfl⟩ := hc; simp only [dataOf, Option.some.injEq] at hw; rw [← hw]
      · exact hs.sent mk j' k w hj' hk hw
    · intro j' k hj' hk; simp only [reduceCtorEq, false_and, if_false]; exact hs.sentA j' k hj' hk
    · intro j' k hj' hk; simp only [reduceCtorEq, false_and, if_false]; exact hs.sentC j' k hj' hk
  | deliver mk i j hi hj h w hw q hq =>
    obtain ⟨p, h1, h2⟩ := hs.stage_ne hi h
    have hw' := hs.sent mk j i w hj hi hw
    subst hw'
    rw [accept_honest h2 mk s.reg hi hj h1] at hq
    rw [hq]
    refine ⟨easy ⟨_, rfl⟩ (not_last_same rfl), ?_, hs.le5, hs.sent, hs.sentA, hs.sentC, ?_, hs.final, hs.final_some⟩
    · intro k hk
      simp only
      by_cases hki : k = i
      · subst hki
        right
        refine ⟨_, set_same _ _ _, h2.store mk ?_ hj⟩
        intro mk' j' hh
        simp only [true_and] at hh
        split at hh
        · next hc => exact .inr hc
        · exact .inl hh
      · simp only [hki, false_and, and_false, if_false]
        rw [set_other _ _ (fun e => hki (F.keyInj k i hk hi e))]
        exact hs.party k hk
    · intro k hk h0 mk' j'
      simp only
      have h0' : s.stage k = 0 := h0
      have hki : k ≠ i := by rintro rfl; omega
      simp only [hki, false_and, and_false, if_false]
      exact hs.early k hk h0 mk' j'

theorem PI.m_eq {F : Facts e S} {i k : Nat} {got : Mk → Nat → Bool} {p : Party} (h : PI F.toGFacts i k got p) (hi : i < S.n) :
    p.m = F.m := h.m.trans (F.mOf_eq hi)

theorem PI.key_eq {F : Facts e S} {i k : Nat} {got : Mk → Nat → Bool} {p : Party} (h : PI F.toGFacts i k got p) (hi : i < S.n)
    (hk : 2 ≤ k) : p.keys.eddsaPub = some (Ed.lawful.pt F.A) := by
  rw [← F.AOf_eq hi]; exact (h.s1 hk).2.2.2.2

theorem NI.released {F : Facts e S} {s : Net} (hs : NI F.toGFacts s) (i : Nat) (out : Bytes) (hi : i < S.n)
    (ho : s.final i = some out) : e.jsonSig F.sig = some out := by
  rw [← F.sigOf_eq hi]; exact hs.final i out hi ho

theorem NI.finished {F : Facts e S} {s : Net} (hs : NI F.toGFacts s) (i : Nat) (hi : i < S.n) (h5 : s.stage i = 5) :
    (s.final i).isSome := hs.final_some i hi h5 (F.fits hi)

/-- every call of an honest session succeeds and keeps the invariant -/
theorem step_ok {F : Facts e S} {s s' : Net} {out : Res Err Bytes} (hs : NI F.toGFacts s) (h : Step e S s out s') :
    (∃ b, out = .ok b) ∧ NI F.toGFacts s' := by
  obtain ⟨⟨h1, h2⟩, h3⟩ := gstep_ok hs h
  refine ⟨?_, h3⟩
  by_cases hl : ∃ i, LastCall S s s' i
  · obtain ⟨i, hi⟩ := hl
    exact (h2 i hi).1 (F.fits hi.1)
  · exact h1 fun i hi => hl ⟨i, hi⟩

theorem poll_same (e : Env) (op : Op) (h : op.isPoll = true) (r : Reg) : (op.run e r).2 = r := by
  have key : ∀ {α : Type} (nf : Err) (key : Bytes) (f : Party → Res Err α), (withParty nf r key fun p => (f p, p)).2 = r := by
    intro α nf key f
    cases hp : r key with
    | none => rw [withParty_none _ _ hp]
    | some p => rw [withParty_some _ _ hp]; exact set_self r key p hp
  cases op <;> first | (simp [Op.isPoll] at h; done) | (exact key _ _ _)

theorem noise_ok {s s' : Net} (hs : NI F s) (h : Noise e S s s') : NI F s' := by
  cases h with
  | poll op ho =>
    rw [poll_same e op ho]
    exact hs
  | other op ho =>
    refine ⟨?_, hs.le5, hs.sent, hs.sentA, hs.sentC, hs.early, hs.final, hs.final_some⟩
    intro i hi
    simp only
    rw [run_other e op s.reg (S.key i) (fun e => ho i hi e.symm)]
    exact hs.party i hi

theorem run_inv {s : Net} (F : GFacts e S) (h : Run e S s) : NI F s := by
  induction h with
  | init r =>
    refine ⟨fun _ _ => .inl rfl, fun _ _ => by simp, ?_, ?_, ?_, fun _ _ _ _ _ => rfl, ?_, ?_⟩
    · intro mk j i w _ _ h; exact nomatch h
    · intro j i _ _ h; simp at h
    · intro j i _ _ h; simp at h
    · intro i out _ h; exact nomatch h
    · intro i _ h; simp at h
  | step _ hst ih => exact (gstep_ok ih hst).2
  | noise _ hst ih => exact noise_ok ih hst

end Tss.Onsign
