import Verif.Props.OnsignSetup
import Verif.Lemmas.OnsignNetInv
import Mathlib.Algebra.Order.BigOperators.Group.Finset
/-! C55: honest signing. -/
namespace Tss.Onsign
open Tss Text Wire RangeProofs

variable {e : Env} {S : Session}

/-- C55: whatever the order and repetition of deliveries and fetches and the interleaving of the parties (and of any
unrelated calls), every call the honest parties make returns Ok. -/
theorem C55_every_call_ok (H : Honest e S) (s s' : Net) (out : Res Err Bytes) (hr : Run e S s) (h : Step e S s out s') :
    ∃ b, out = .ok b := by
  obtain ⟨F, -⟩ := H.facts
  exact (step_ok (run_inv F.toGFacts hr) h).1

theorem sig_verifies (F : Facts e S) : spec.Verifies e.sha512 (Ed.encode F.A) (intBytes F.m) F.sig.signature ∧
    leNat (F.sig.signature.drop 32) < Ed.ord := by
  have hlt : F.stot < Ed.ord := Nat.mod_lt _ Ed.ord_prime.pos
  have hordlt : Ed.ord < 256 ^ 32 := by decide +kernel
  have hle : leNat (leFixed 32 F.stot) = F.stot := by
    rw [leNat_leFixed, Nat.mod_eq_of_lt (lt_trans hlt hordlt)]
  have hd : (F.sig.signature).drop 32 = leFixed 32 F.stot := by
    show (Ed.encode F.Rtot ++ leFixed 32 F.stot).drop 32 = _
    rw [List.drop_left' (Ed.encode_length _)]
  refine ⟨edVerify_sound (Ed.encode_length _) (Ed.encode_length _) (leFixed_length _ _) ?_, by rw [hd, hle]; exact hlt⟩
  rw [Ed.edVerify_encode _ _ _ _ _ (Ed.encode_length _) (leFixed_length _ _), hle]
  refine ⟨lt_trans hlt (by decide +kernel), ?_⟩
  exact congrArg Ed.encode (sig_equation (F := F)).symm

theorem sig_r (F : Facts e S) : F.sig.r = intBytes (leNat (Ed.encode F.Rtot) : Nat) := by simp only [Facts.sig, GFacts.sigOf]
theorem sig_s (F : Facts e S) : F.sig.s = intBytes (F.stot : Nat) := by simp only [Facts.sig, GFacts.sigOf]

/-- What all parties that finish return, wherever the invariant of honest runs holds. -/
theorem agreement_inv (H : Honest e S) : ∃ sd : SigData,
    (∀ s, (∀ F : Facts e S, NI F.toGFacts s) → ∀ i, i < S.n → s.stage i = 5 → ∃ p out, s.reg (S.key i) = some p ∧ s.final i = some out ∧
      e.jsonSig sd = some out ∧
      p.keys.eddsaPub = some (Ed.lawful.pt (((List.range S.n).map fun j => (beNat (H.child j) : Int)).sum • Ed.B))) ∧
    spec.Verifies e.sha512 (Ed.encode (((List.range S.n).map fun j => (beNat (H.child j) : Int)).sum • Ed.B))
      (H.msg.dropWhile (· = 0)) sd.signature ∧
    leNat (sd.signature.drop 32) < Ed.ord ∧
    sd.r = intBytes (leNat (sd.signature.take 32)) ∧ sd.s = intBytes (leNat (sd.signature.drop 32)) ∧
    sd.m = H.msg.dropWhile (· = 0) := by
  obtain ⟨F, f1, f2, f3, f4⟩ := H.facts
  have hA : F.A = ((List.range S.n).map fun j => (beNat (H.child j) : Int)).sum • Ed.B := by
    rw [F.A_eq, f4]; rfl
  have hm : intBytes F.m = H.msg.dropWhile (· = 0) := by rw [f3, C56_signed_bytes]
  obtain ⟨v1, v2⟩ := sig_verifies F
  have hordlt : Ed.ord < 256 ^ 32 := by decide +kernel
  have hlt : F.stot < Ed.ord := Nat.mod_lt _ Ed.ord_prime.pos
  have hd : (F.sig.signature).drop 32 = leFixed 32 F.stot := by
    show (Ed.encode F.Rtot ++ leFixed 32 F.stot).drop 32 = _
    rw [List.drop_left' (Ed.encode_length _)]
  have ht : (F.sig.signature).take 32 = Ed.encode F.Rtot := by
    show (Ed.encode F.Rtot ++ leFixed 32 F.stot).take 32 = _
    rw [List.take_left' (Ed.encode_length _)]
  refine ⟨F.sig, ?_, ?_, v2, ?_, ?_, hm⟩
  · intro s hr i hi h5
    have hs := hr F
    obtain ⟨out, ho⟩ := Option.isSome_iff_exists.mp (hs.finished i hi h5)
    obtain ⟨p, p1, p2⟩ := hs.stage_ne hi (by omega)
    refine ⟨p, out, p1, ho, hs.released i out hi ho, ?_⟩
    rw [← hA]
    exact p2.key_eq hi (by omega)
  · rw [← hA, ← hm]; exact v1
  · rw [ht]; exact sig_r F
  · rw [hd, leNat_leFixed, Nat.mod_eq_of_lt (lt_trans hlt hordlt)]; exact sig_s F

/-- C55: all parties that finish return the same record. Its signature verifies (RFC 8032) for the message, without its
leading zero bytes, under the sum of the derived shares times the base point, which every finished party holds as its
group key; its scalar is reduced; and its R, S and M fields are those of the signature and the message. -/
theorem C55_agreement (H : Honest e S) : ∃ sd : SigData,
    (∀ s, Run e S s → ∀ i, i < S.n → s.stage i = 5 → ∃ p out, s.reg (S.key i) = some p ∧ s.final i = some out ∧
      e.jsonSig sd = some out ∧
      p.keys.eddsaPub = some (Ed.lawful.pt (((List.range S.n).map fun j => (beNat (H.child j) : Int)).sum • Ed.B))) ∧
    spec.Verifies e.sha512 (Ed.encode (((List.range S.n).map fun j => (beNat (H.child j) : Int)).sum • Ed.B))
      (H.msg.dropWhile (· = 0)) sd.signature ∧
    leNat (sd.signature.drop 32) < Ed.ord ∧
    sd.r = intBytes (leNat (sd.signature.take 32)) ∧ sd.s = intBytes (leNat (sd.signature.drop 32)) ∧
    sd.m = H.msg.dropWhile (· = 0) := by
  obtain ⟨sd, h1, h2⟩ := agreement_inv H
  exact ⟨sd, fun s hr => h1 s fun F => run_inv F.toGFacts hr, h2⟩

theorem slots_ne (F : Facts e S) {s : Net} {i : Nat} (hi : i < S.n) {p : Party}
    (hp : PI F.toGFacts i (s.stage i) (fun mk j => s.got mk i j) p) (mk : Mk) (hk : mk.stage ≤ s.stage i) (hall : s.all S mk i) :
    ∀ j, j < S.n → (mk.slots p).getD j [] ≠ [] := by
  intro j hj
  have : (mk.slots p).getD j [] = wireBytes (F.cont mk j i) := by
    by_cases hji : j = i
    · subst hji; exact hp.own mk hk
    · exact hp.recv mk j (hall j hj hji)
  rw [this]
  intro hnil
  have hc := F.parse mk j i hj hi
  rw [hnil, show parseWireMsg [] = none by decide] at hc
  cases hc

/-- C55: once a party has run its round and all peers' messages of the round have arrived, finish of that round says Ok. -/
theorem C55_finish (H : Honest e S) (s : Net) (hr : Run e S s) (i : Nat) (hi : i < S.n) :
    (2 ≤ s.stage i → s.all S .a i → s.all S .b i → (OnSignRound1Finish s.reg (S.key i)).1 = .ok ()) ∧
    (3 ≤ s.stage i → s.all S .two i → (OnSignRound2Finish s.reg (S.key i)).1 = .ok ()) ∧
    (4 ≤ s.stage i → s.all S .three i → (OnSignRound3Finish s.reg (S.key i)).1 = .ok ()) := by
  obtain ⟨F, -⟩ := H.facts
  have hs := run_inv F.toGFacts hr
  refine ⟨?_, ?_, ?_⟩
  · intro h2 ha hb
    obtain ⟨p, p1, p2⟩ := hs.stage_ne hi (by omega)
    have na := slots_ne F hi p2 .a h2 ha
    have nb := slots_ne F hi p2 .b h2 hb
    have la : p.m11.length = S.n := p2.lm .a
    have lb : p.m12.length = S.n := p2.lm .b
    unfold OnSignRound1Finish
    rw [withParty_some _ _ p1]
    rcases finish1_cases 0 p.m11 p.m12 (by omega) with h | ⟨j, hj, -, h⟩
    · exact h.1
    · rcases h with ⟨-, h⟩ | ⟨-, -, h⟩
      · exact absurd h (na j (by omega))
      · exact absurd h (nb j (by omega))
  · intro h2 ha
    obtain ⟨p, p1, p2⟩ := hs.stage_ne hi (by omega)
    have na := slots_ne F hi p2 .two h2 ha
    have la : p.m2.length = S.n := p2.lm .two
    unfold OnSignRound2Finish
    rw [withParty_some _ _ p1]
    exact (finish_ok_iff _ _).mpr fun j hj => na j (by omega)
  · intro h2 ha
    obtain ⟨p, p1, p2⟩ := hs.stage_ne hi (by omega)
    have na := slots_ne F hi p2 .three h2 ha
    have la : p.m3.length = S.n := p2.lm .three
    unfold OnSignRound3Finish
    rw [withParty_some _ _ p1]
    exact (finish_ok_iff _ _).mpr fun j hj => na j (by omega)

/-- the protocol cannot get stuck: as long as some party has not finished, either a message that was sent has not
been delivered, or a message that is ready at its sender has not been fetched, or some party can run its next call. -/
theorem no_deadlock (F : GFacts e S) (s : Net) (hs : NI F s) (hn : ∃ i, i < S.n ∧ s.stage i ≠ 5) :
    (∃ mk i j w, i < S.n ∧ j < S.n ∧ 1 ≤ s.stage i ∧ s.sent mk j i = some w ∧ s.got mk i j = false) ∨
    (∃ i j, i < S.n ∧ j < S.n ∧ 2 ≤ s.stage j ∧ s.sent .b j i = none) ∨
    (∃ i j, i < S.n ∧ j < S.n ∧ 3 ≤ s.stage j ∧ s.sent .two j i = none) ∨
    (∃ i out s', i < S.n ∧ s'.stage i = s.stage i + 1 ∧ Step e S s out s') := by
  obtain ⟨i, hi, hmin⟩ : ∃ i, i < S.n ∧ ∀ j, j < S.n → s.stage i ≤ s.stage j := by
    obtain ⟨i0, hi0, -⟩ := hn
    obtain ⟨i, hi, hm⟩ := Finset.exists_min_image (Finset.range S.n) s.stage ⟨i0, by simpa using hi0⟩
    exact ⟨i, by simpa using hi, fun j hj => hm j (by simpa using hj)⟩
  have hi5 : s.stage i < 5 := by
    obtain ⟨k, hk, hk5⟩ := hn
    have := hs.le5 k hk
    have := hmin k hk
    omega
  have missing : ∀ mk : Mk, ¬ s.all S mk i → ∃ j, j < S.n ∧ s.got mk i j = false := by
    intro mk h
    unfold Net.all at h
    push Not at h
    obtain ⟨j, h1, -, h2⟩ := h
    exact ⟨j, h1, by simpa using h2⟩
  have cases_ : s.stage i = 0 ∨ s.stage i = 1 ∨ s.stage i = 2 ∨ s.stage i = 3 ∨ s.stage i = 4 := by omega
  rcases cases_ with h | h | h | h | h
  · exact .inr (.inr (.inr ⟨i, _, _, hi, by simp [h, upd], Step.create s i hi h _ rfl⟩))
  · exact .inr (.inr (.inr ⟨i, _, _, hi, by simp [h, upd], Step.exec1 s i hi h _ rfl⟩))
  · by_cases ha : s.all S .a i
    · by_cases hb : s.all S .b i
      · exact .inr (.inr (.inr ⟨i, _, _, hi, by simp [h, upd], Step.exec2 s i hi h ha hb _ rfl⟩))
      · obtain ⟨j, hj, hg⟩ := missing .b hb
        cases hw : s.sent .b j i with
        | none => exact .inr (.inl ⟨i, j, hi, hj, by have := hmin j hj; omega, hw⟩)
        | some w => exact .inl ⟨.b, i, j, w, hi, hj, by omega, hw, hg⟩
    · obtain ⟨j, hj, hg⟩ := missing .a ha
      obtain ⟨w, hw⟩ := Option.isSome_iff_exists.mp (hs.sentA j i hj hi (by have := hmin j hj; omega))
      exact .inl ⟨.a, i, j, w, hi, hj, by omega, hw, hg⟩
  · by_cases ha : s.all S .two i
    · exact .inr (.inr (.inr ⟨i, _, _, hi, by simp [h, upd], Step.exec3 s i hi h ha _ rfl⟩))
    · obtain ⟨j, hj, hg⟩ := missing .two ha
      cases hw : s.sent .two j i with
      | none => exact .inr (.inr (.inl ⟨i, j, hi, hj, by have := hmin j hj; omega, hw⟩))
      | some w => exact .inl ⟨.two, i, j, w, hi, hj, by omega, hw, hg⟩
  · by_cases ha : s.all S .three i
    · exact .inr (.inr (.inr ⟨i, _, _, hi, by simp [h, upd], Step.final s i hi h ha _ rfl⟩))
    · obtain ⟨j, hj, hg⟩ := missing .three ha
      obtain ⟨w, hw⟩ := Option.isSome_iff_exists.mp (hs.sentC j i hj hi (by have := hmin j hj; omega))
      exact .inl ⟨.three, i, j, w, hi, hj, by omega, hw, hg⟩

/-- C55: the protocol cannot get stuck: as long as some party has not finished, either a message that was sent has not
been delivered, or a message that is ready at its sender has not been fetched, or some party can run its next call. -/
theorem C55_no_deadlock (H : Honest e S) (s : Net) (hr : Run e S s) (hn : ∃ i, i < S.n ∧ s.stage i ≠ 5) :
    (∃ mk i j w, i < S.n ∧ j < S.n ∧ 1 ≤ s.stage i ∧ s.sent mk j i = some w ∧ s.got mk i j = false) ∨
    (∃ i j, i < S.n ∧ j < S.n ∧ 2 ≤ s.stage j ∧ s.sent .b j i = none) ∨
    (∃ i j, i < S.n ∧ j < S.n ∧ 3 ≤ s.stage j ∧ s.sent .two j i = none) ∨
    (∃ i out s', i < S.n ∧ s'.stage i = s.stage i + 1 ∧ Step e S s out s') :=
  H.signers.facts.elim fun F _ => no_deadlock F s (run_inv F hr) hn

/-- calls still to make, messages still to deliver, messages still to fetch -/
def todo (S : Session) (s : Net) : Nat :=
  (∑ i ∈ Finset.range S.n, (5 - s.stage i)) +
  ((∑ i ∈ Finset.range S.n, ∑ j ∈ Finset.range S.n,
      ((if s.got .a i j then 0 else 1) + (if s.got .b i j then 0 else 1) + (if s.got .two i j then 0 else 1) +
        (if s.got .three i j then 0 else 1))) +
   ∑ i ∈ Finset.range S.n, ∑ j ∈ Finset.range S.n,
      ((if (s.sent .b j i).isSome then 0 else 1) + (if (s.sent .two j i).isSome then 0 else 1)))

/-- a double sum of termwise smaller values with one strictly smaller term -/
theorem sum2_lt {n : Nat} {f g : Nat → Nat → Nat} (h : ∀ i j, f i j ≤ g i j) {i j : Nat} (hi : i < n) (hj : j < n)
    (hlt : f i j < g i j) : (∑ a ∈ Finset.range n, ∑ b ∈ Finset.range n, f a b) <
      ∑ a ∈ Finset.range n, ∑ b ∈ Finset.range n, g a b :=
  Finset.sum_lt_sum (fun a _ => Finset.sum_le_sum fun b _ => h a b)
    ⟨i, by simpa using hi, Finset.sum_lt_sum (fun b _ => h i b) ⟨j, by simpa using hj, hlt⟩⟩

theorem Steps.run {e : Env} {S : Session} {s s' : Net} (h : Steps e S s s') : Run e S s → Run e S s' := by
  induction h with
  | refl _ => exact id
  | head h1 _ ih => exact fun hr => ih (.step hr h1)

/-- from every state an honest run can reach, the run can be completed by all parties. -/
theorem can_finish (F : GFacts e S) (s : Net) (hs : NI F s) :
    ∃ s', Steps e S s s' ∧ ∀ i, i < S.n → s'.stage i = 5 := by
  induction hM : todo S s using Nat.strong_induction_on generalizing s with
  | _ M ih =>
    by_cases hdone : ∀ i, i < S.n → s.stage i = 5
    · exact ⟨s, .refl s, hdone⟩
    push Not at hdone
    have next : ∀ {out : Res Err Bytes} {s1 : Net}, Step e S s out s1 → todo S s1 < M →
        ∃ s', Steps e S s s' ∧ ∀ i, i < S.n → s'.stage i = 5 := by
      intro out s1 h hl
      obtain ⟨s2, a, b⟩ := ih _ hl _ (gstep_ok hs h).2 rfl
      exact ⟨s2, .head h a, b⟩
    rcases no_deadlock F s hs hdone with ⟨mk, i, j, w, hi, hj, h1, hw, hgot⟩ | ⟨i, j, hi, hj, h1, hw⟩ |
      ⟨i, j, hi, hj, h1, hw⟩ | ⟨i, out, s', hi, hst, hstep⟩
    · have hstep := Step.deliver (e := e) (S := S) s mk i j hi hj h1 w hw _ rfl
      refine next hstep ?_
      rw [← hM]
      unfold todo
      apply Nat.add_lt_add_left
      apply Nat.add_lt_add_right
      have hmono : ∀ i' j' (mk' : Mk), (if (if mk' = mk ∧ i' = i ∧ j' = j then true else s.got mk' i' j') then 0 else 1) ≤
          (if s.got mk' i' j' then 0 else 1) := by
        intro i' j' mk'
        split_ifs <;> simp_all
      refine sum2_lt (fun a b => ?_) hi hj ?_
      · exact Nat.add_le_add (Nat.add_le_add (Nat.add_le_add (hmono _ _ _) (hmono _ _ _)) (hmono _ _ _)) (hmono _ _ _)
      · cases mk <;> simp [hgot]
    · have hstep := Step.fetch1 (e := e) s i j hi hj h1 _ rfl
      obtain ⟨b, hb⟩ := (gstep_ok hs hstep).1.1 (not_last_same rfl)
      refine next hstep ?_
      rw [← hM]
      unfold todo
      apply Nat.add_lt_add_left
      apply Nat.add_lt_add_left
      rw [hb]
      refine sum2_lt (fun a c => ?_) hi hj ?_
      · refine Nat.add_le_add ?_ ?_
        · simp only [dataOf, true_and]
          by_cases hc : c = j ∧ a = i
          · simp [hc]
          · rw [if_neg hc]
        · simp
      · simp [dataOf, hw]
    · have hstep := Step.fetch2 (e := e) s i j hi hj h1 _ rfl
      obtain ⟨b, hb⟩ := (gstep_ok hs hstep).1.1 (not_last_same rfl)
      refine next hstep ?_
      rw [← hM]
      unfold todo
      apply Nat.add_lt_add_left
      apply Nat.add_lt_add_left
      rw [hb]
      refine sum2_lt (fun a c => ?_) hi hj ?_
      · refine Nat.add_le_add ?_ ?_
        · simp
        · simp only [dataOf, true_and]
          by_cases hc : c = j ∧ a = i
          · simp [hc]
          · rw [if_neg hc]
      · simp [dataOf, hw]
    · refine next hstep ?_
      rw [← hM]
      have hs' := (gstep_ok hs hstep).2
      have hi5 := hs'.le5 i hi
      have hothers : (∀ k, k ≠ i → s'.stage k = s.stage k) ∧ s'.got = s.got ∧
          (∀ a b, s'.sent .b a b = s.sent .b a b) ∧ ∀ a b, s'.sent .two a b = s.sent .two a b := by
        cases hstep with
        | create i2 _ _ q hq =>
          simp only [upd] at hst
          split at hst
          · next h => subst h; exact ⟨fun k hk => by simp [hk, upd], rfl, fun _ _ => rfl, fun _ _ => rfl⟩
          · omega
        | exec1 i2 _ _ q hq =>
          simp only [upd] at hst
          split at hst
          · next h => subst h; exact ⟨fun k hk => by simp [hk, upd], rfl, fun _ _ => by simp, fun _ _ => by simp⟩
          · omega
        | exec2 i2 _ _ _ _ q hq =>
          simp only [upd] at hst
          split at hst
          · next h => subst h; exact ⟨fun k hk => by simp [hk, upd], rfl, fun _ _ => rfl, fun _ _ => rfl⟩
          · omega
        | exec3 i2 _ _ _ q hq =>
          simp only [upd] at hst
          split at hst
          · next h => subst h; exact ⟨fun k hk => by simp [hk, upd], rfl, fun _ _ => by simp, fun _ _ => by simp⟩
          · omega
        | final i2 _ _ _ q hq =>
          simp only [upd] at hst
          split at hst
          · next h => subst h; exact ⟨fun k hk => by simp [hk, upd], rfl, fun _ _ => rfl, fun _ _ => rfl⟩
          · omega
        | fetch1 => simp only at hst; omega
        | fetch2 => simp only at hst; omega
        | deliver => simp only at hst; omega
      obtain ⟨o1, o2, o3, o4⟩ := hothers
      unfold todo
      rw [o2]
      simp only [o3, o4]
      apply Nat.add_lt_add_right
      refine Finset.sum_lt_sum (fun k _ => ?_) ⟨i, by simpa using hi, by omega⟩
      by_cases hk : k = i
      · subst hk; omega
      · rw [o1 k hk]

/-- C55: from every state an honest run can reach, the run can be completed by all parties. -/
theorem C55_can_finish (H : Honest e S) (s : Net) (hr : Run e S s) :
    ∃ s', Steps e S s s' ∧ ∀ i, i < S.n → s'.stage i = 5 :=
  H.signers.facts.elim fun F _ => can_finish F s (run_inv F hr)

end Tss.Onsign
