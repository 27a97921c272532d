import Verif.Lemmas.KeygenInv
import Verif.Lemmas.Xor
import Verif.Props.Keygen
import Verif.Props.Schnorr
import Verif.Props.Common
/-! C16 (histories), C18 - C20, C22 (histories): the checking rounds of key generation. -/
namespace Tss.Keygen
open Tss Text Wire

/-! ### C16, the part that holds -/

/-- Slots of other parties are empty or hold a well-formed message of the round. -/
def SlotsGood (p : Party) : Prop :=
  ∀ (rd : Round) (j : Nat), j ≠ p.index → (rd.msgs p).getD j [] = [] ∨
    ∃ c, parseWireMsg ((rd.msgs p).getD j []) = some c ∧ c.kind = rd.kind

theorem SlotsGood.of_eq {p q : Party} (h : SlotsGood p) (hi : q.index = p.index)
    (hm : ∀ (rd : Round) (j : Nat), j ≠ p.index → (rd.msgs q).getD j [] = (rd.msgs p).getD j []) : SlotsGood q := by
  intro rd j hj
  rw [hi] at hj
  rw [hm rd j hj]
  exact h rd j hj

theorem loop_msgs {step : Party → Nat → Res Err Unit × Party} (p0 : Party)
    (h : ∀ s j, (step s j).2.m1 = s.m1 ∧ (step s j).2.m2 = s.m2 ∧ (step s j).2.m3 = s.m3 ∧ (step s j).2.index = s.index)
    (l : List Nat) :
    (forJ step l p0).2.m1 = p0.m1 ∧ (forJ step l p0).2.m2 = p0.m2 ∧ (forJ step l p0).2.m3 = p0.m3 ∧
      (forJ step l p0).2.index = p0.index := by
  refine forJ_inv (fun s => s.m1 = p0.m1 ∧ s.m2 = p0.m2 ∧ s.m3 = p0.m3 ∧ s.index = p0.index) ?_ l p0
    ⟨rfl, rfl, rfl, rfl⟩
  intro s j ⟨h1, h2, h3, h4⟩
  obtain ⟨g1, g2, g3, g4⟩ := h s j
  exact ⟨g1.trans h1, g2.trans h2, g3.trans h3, g4.trans h4⟩

theorem r2Step_msgs (s : Party) (j : Nat) : (r2Step s j).2.m1 = s.m1 ∧ (r2Step s j).2.m2 = s.m2 ∧
    (r2Step s j).2.m3 = s.m3 ∧ (r2Step s j).2.index = s.index := by
  unfold r2Step
  split <;> exact ⟨rfl, rfl, rfl, rfl⟩

theorem r3Step_msgs (e : Env) (s : Party) (j : Nat) : (r3Step e s j).2.m1 = s.m1 ∧ (r3Step e s j).2.m2 = s.m2 ∧
    (r3Step e s j).2.m3 = s.m3 ∧ (r3Step e s j).2.index = s.index := by
  unfold r3Step
  by_cases hj : j = s.index
  · rw [if_pos hj]; exact ⟨rfl, rfl, rfl, rfl⟩
  rw [if_neg hj]
  cases hp : parseWireMsg (s.m2.getD j []) with
  | none => exact ⟨rfl, rfl, rfl, rfl⟩
  | some m =>
    cases m with
    | kg2 ssid srid xx xy ax ay u pn ps pt =>
      simp only
      cases hA : ECPoint.new e.c (beNat ax) (beNat ay) with
      | none => exact ⟨rfl, rfl, rfl, rfl⟩
      | some A =>
        simp only
        cases hX : ECPoint.new e.c (beNat xx) (beNat xy) with
        | none => exact ⟨rfl, rfl, rfl, rfl⟩
        | some X =>
          simp only
          split
          · exact ⟨rfl, rfl, rfl, rfl⟩
          · split <;> exact ⟨rfl, rfl, rfl, rfl⟩
    | _ => exact ⟨rfl, rfl, rfl, rfl⟩

/-- What the exec calls do to the message slots: only the own slot of the round's outbox changes. -/
theorem exec_msgs (e : Env) (rnd : Rand1) (p : Party) :
    (∃ w, (r1Exec e rnd p).2.index = p.index ∧ (r1Exec e rnd p).2.m2 = p.m2 ∧ (r1Exec e rnd p).2.m3 = p.m3 ∧
      ((r1Exec e rnd p).2.m1 = p.m1.set p.index w ∨ (r1Exec e rnd p).2.m1 = p.m1)) ∧
    (∃ w, (r2Exec p).2.index = p.index ∧ (r2Exec p).2.m1 = p.m1 ∧ (r2Exec p).2.m3 = p.m3 ∧
      ((r2Exec p).2.m2 = p.m2.set p.index w ∨ (r2Exec p).2.m2 = p.m2)) ∧
    (∃ w, (r3Exec e p).2.index = p.index ∧ (r3Exec e p).2.m1 = p.m1 ∧ (r3Exec e p).2.m2 = p.m2 ∧
      ((r3Exec e p).2.m3 = p.m3.set p.index w ∨ (r3Exec e p).2.m3 = p.m3)) ∧
    ((r4Exec e p).2.index = p.index ∧ (r4Exec e p).2.m1 = p.m1 ∧ (r4Exec e p).2.m2 = p.m2 ∧
      (r4Exec e p).2.m3 = p.m3) := by
  refine ⟨?_, ?_, ?_, ?_⟩
  · unfold r1Exec
    simp only [resetOK]
    split
    · exact ⟨_, rfl, rfl, rfl, .inl rfl⟩
    · exact ⟨[], rfl, rfl, rfl, .inr rfl⟩
  · have key := loop_msgs (resetOK { p with number := 2 }) r2Step_msgs
      (List.range (resetOK { p with number := 2 }).m1.length)
    unfold r2Exec
    simp only
    cases hr : forJ r2Step (List.range (resetOK { p with number := 2 }).m1.length) (resetOK { p with number := 2 }) with
    | mk r s1 =>
      rw [hr] at key
      obtain ⟨k1, k2, k3, k4⟩ := key
      simp only at k1 k2 k3 k4
      cases r <;> simp only
      · split
        · exact ⟨_, k4, k1, k3, .inl (by rw [k2, k4]; rfl)⟩
        · exact ⟨[], k4, k1, k3, .inr k2⟩
      · exact ⟨[], k4, k1, k3, .inr k2⟩
      · exact ⟨[], k4, k1, k3, .inr k2⟩
  · have key := loop_msgs (resetOK { p with number := 3 }) (r3Step_msgs e)
      (List.range (resetOK { p with number := 3 }).m2.length)
    unfold r3Exec
    simp only
    cases hr : forJ (r3Step e) (List.range (resetOK { p with number := 3 }).m2.length) (resetOK { p with number := 3 }) with
    | mk r s1 =>
      rw [hr] at key
      obtain ⟨k1, k2, k3, k4⟩ := key
      simp only at k1 k2 k3 k4
      cases r <;> simp only
      · split
        · exact ⟨_, k4, k1, k2, .inl (by rw [k3, k4]; rfl)⟩
        · exact ⟨[], k4, k1, k2, .inr k3⟩
      · exact ⟨[], k4, k1, k2, .inr k3⟩
      · exact ⟨[], k4, k1, k2, .inr k3⟩
  · have key := forJ_const (r4Step_const e) (List.range (resetOK { p with number := 4 }).m3.length)
      (resetOK { p with number := 4 })
    unfold r4Exec
    simp only
    cases hr : forJ (r4Step e) (List.range (resetOK { p with number := 4 }).m3.length) (resetOK { p with number := 4 }) with
    | mk r s1 =>
      rw [hr] at key
      simp only at key
      subst key
      cases r <;> simp only
      · split
        · split
          · split <;> exact ⟨rfl, rfl, rfl, rfl⟩
          · exact ⟨rfl, rfl, rfl, rfl⟩
          · exact ⟨rfl, rfl, rfl, rfl⟩
        · exact ⟨rfl, rfl, rfl, rfl⟩
      · exact ⟨rfl, rfl, rfl, rfl⟩
      · exact ⟨rfl, rfl, rfl, rfl⟩

theorem SlotsGood.exec {p q : Party} (h : SlotsGood p) (hi : q.index = p.index)
    (hm : ∀ rd : Round, (∃ w, rd.msgs q = (rd.msgs p).set p.index w) ∨ rd.msgs q = rd.msgs p) : SlotsGood q := by
  refine h.of_eq hi ?_
  intro rd j hj
  rcases hm rd with ⟨w, hw⟩ | hw
  · rw [hw, getD_set, if_neg (fun h => hj h.1.symm)]
  · rw [hw]

theorem goodReach_slots (e : Env) {r : Reg} (h : GoodReach e r) : ∀ k p, r k = some p → SlotsGood p := by
  induction h with
  | init => intro k p hk; cases hk
  | @step r op _ hacc ih =>
    cases op with
    | new key idx cnt pIDs root =>
      refine new_inv SlotsGood key idx cnt pIDs root ih (fun n i ids x hi hl => ?_)
      intro rd j hj
      left
      cases rd <;> simp only [Round.msgs, freshParty, List.getD_eq_getElem?_getD, List.getElem?_replicate] <;>
        split <;> rfl
    | saveChain key codes =>
      refine withParty_inv SlotsGood key _ ih (fun p hp => ?_)
      simp only
      split
      · exact hp
      · split
        · exact hp.of_eq rfl (fun rd j _ => by cases rd <;> rfl)
        · exact hp
        · exact hp
    | remove key =>
      intro k p hk
      simp only [Op.run, RemoveParty] at hk
      split at hk
      · exact ih k p hk
      · simp only [Reg.set] at hk
        split at hk
        · cases hk
        · exact ih k p hk
    | exec1 key rnd =>
      refine withParty_inv SlotsGood key _ ih (fun p hp => ?_)
      obtain ⟨⟨w, h0, h2, h3, h1⟩, -⟩ := exec_msgs e rnd p
      refine hp.exec h0 (fun rd => ?_)
      cases rd
      · exact h1.imp (fun h => ⟨w, h⟩) id
      · exact .inr h2
      · exact .inr h3
    | exec2 key =>
      refine withParty_inv SlotsGood key _ ih (fun p hp => ?_)
      obtain ⟨-, ⟨w, h0, h1, h3, h2⟩, -⟩ := exec_msgs e ⟨0, 0, [], []⟩ p
      refine hp.exec h0 (fun rd => ?_)
      cases rd
      · exact .inr h1
      · exact h2.imp (fun h => ⟨w, h⟩) id
      · exact .inr h3
    | exec3 key =>
      refine withParty_inv SlotsGood key _ ih (fun p hp => ?_)
      obtain ⟨-, -, ⟨w, h0, h1, h2, h3⟩, -⟩ := exec_msgs e ⟨0, 0, [], []⟩ p
      refine hp.exec h0 (fun rd => ?_)
      cases rd
      · exact .inr h1
      · exact .inr h2
      · exact h3.imp (fun h => ⟨w, h⟩) id
    | exec4 key =>
      refine withParty_inv SlotsGood key _ ih (fun p hp => ?_)
      obtain ⟨-, -, -, h0, h1, h2, h3⟩ := exec_msgs e ⟨0, 0, [], []⟩ p
      refine hp.exec h0 (fun rd => ?_)
      cases rd
      · exact .inr h1
      · exact .inr h2
      · exact .inr h3
    | fin rd key => cases rd <;> exact withParty_inv SlotsGood key _ ih (fun p hp => hp)
    | acc rd key frm msg =>
      have hok := hacc rd key frm msg rfl
      intro k q hk
      cases hp : r key with
      | none =>
        have : (rd.accept r key frm msg) = (.err (.partyNotFound key), r) := by
          rw [accept_eq, withParty_none _ hp]
        simp only [Op.run, this] at hk
        exact ih k q hk
      | some p =>
        have hgood := ih key p hp
        simp only [Op.run, Out.res.injEq] at hok hk
        have hok' : (rd.accept r key frm msg).1 = .ok () := by
          cases h : (rd.accept r key frm msg).1 with
          | ok u => rfl
          | err e => rw [h] at hok; simp [noData] at hok
          | panic => rw [h] at hok; simp [noData] at hok
        cases hb : b64Decode msg with
        | none =>
          rw [C15_bad_base64 rd r key p hp frm msg hb] at hok'
          cases hok'
        | some b =>
          by_cases hf : 0 ≤ frm ∧ frm < (rd.msgs p).length
          · obtain ⟨h1, h2, -⟩ := C15_accept_effect rd r key p hp frm msg b hb hf
            rw [h1] at hk
            obtain ⟨c, hc1, hc2⟩ := h2.mp hok'
            by_cases hkk : k = key
            · subst hkk
              rw [set_same] at hk
              simp only [Option.some.injEq] at hk
              subst hk
              intro rd' j hj
              have hidx : (rd.put p ((rd.msgs p).set frm.toNat b)).index = p.index := by cases rd <;> rfl
              rw [hidx] at hj
              by_cases hrd : rd' = rd
              · subst hrd
                have hmm : rd'.msgs (rd'.put p ((rd'.msgs p).set frm.toNat b)) = (rd'.msgs p).set frm.toNat b := by
                  cases rd' <;> rfl
                rw [hmm, getD_set]
                split
                · exact .inr ⟨c, hc1, hc2⟩
                · exact hgood rd' j hj
              · rw [(C15_other_slots rd p frm.toNat b).2.1 rd' hrd]
                exact hgood rd' j hj
            · rw [set_other _ _ hkk] at hk
              exact ih k q hk
          · rw [C15_bad_sender rd r key p hp frm msg b hb hf] at hok'
            cases hok'

/-- C16, the part that holds: after any history of calls in which every accept returned Ok, if finish of a
round says Ok then every other party's stored message of that round is well formed. -/
theorem C16_finish_implies_wellformed (e : Env) (r : Reg) (h : GoodReach e r) (rd : Round) (key : Bytes) (p : Party)
    (hp : r key = some p) (hfin : (rd.finish r key).1 = .ok ()) (j : Nat) (hj : j < (rd.msgs p).length)
    (hji : j ≠ p.index) : ∃ c, parseWireMsg ((rd.msgs p).getD j []) = some c ∧ c.kind = rd.kind := by
  have h1 := (C17_finish_iff rd r key p hp).2.mp hfin j hj hji
  rcases goodReach_slots e h key p hp rd j hji with h2 | h2
  · exact absurd h2 h1
  · exact h2

/-! ### C18 -/

/-- Everything a successful round 3 has established and done. -/
theorem r3Exec_ok {e : Env} {p p' : Party} {out : Bytes} (h : r3Exec e p = (.ok out, p')) :
    (∀ j, j < p.m2.length → j ≠ p.index → ∃ o, Accepts e p j o) ∧
    ∃ pay pub X A tau x, pub.getD p.index none = some X ∧ p.commitedA = some A ∧ p.tau = some tau ∧
      p.save.privXi = some x ∧
      pay.length = p.payload.length ∧ pub.length = p.save.pubXj.length ∧
      (∀ k, pay.getD k none = if k < p.m2.length ∧ k ≠ p.index ∧ k < p.payload.length then
        (opening e.c (p.m2.getD k [])).map (fun o => ⟨o.A, o.ssid, o.srid, o.u⟩) else p.payload.getD k none) ∧
      (∀ k, pub.getD k none = if k < p.m2.length ∧ k ≠ p.index ∧ k < p.save.pubXj.length then
        (opening e.c (p.m2.getD k [])).map (fun o => o.X) else p.save.pubXj.getD k none) ∧
      out = wireBytes (.kg3 (intBytes (Schnorr.Prove e.c.N tau
        (challenge e p.ssid (sridFold e.c p (List.range p.m2.length)) p.index X A) x)) [] []) ∧
      p' = { p with
        number := 3
        ok := p.ok.map fun _ => false
        payload := pay
        save := { p.save with pubXj := pub }
        srid := sridFold e.c p (List.range p.m2.length)
        m3 := p.m3.set p.index out } := by
  unfold r3Exec at h
  simp only at h
  cases hr : forJ (r3Step e) (List.range (resetOK { p with number := 3 }).m2.length) (resetOK { p with number := 3 }) with
  | mk r s1 =>
    rw [hr] at h
    cases r with
    | err er => simp at h
    | panic => simp at h
    | ok u =>
      obtain ⟨h1, h2⟩ := (r3Loop_ok_iff e _ _ _).mp hr
      have h1' : ∀ j, j < p.m2.length → j ≠ p.index → ∃ o, Accepts e p j o :=
        fun j hj hji => h1 j (List.mem_range.mpr hj) hji
      refine ⟨h1', ?_⟩
      obtain ⟨pay, pub, g1, g2, g3, g4, g5⟩ := r3fold e (List.range (resetOK { p with number := 3 }).m2.length)
        (resetOK { p with number := 3 }) (by
          intro j hj hji
          obtain ⟨o, ho⟩ := h1 j hj hji
          exact ⟨o, ho.1⟩)
      rw [g1] at h2
      subst h2
      simp only at h
      have e0 : (resetOK { p with number := 3 }).index = p.index := rfl
      have e1 : (resetOK { p with number := 3 }).commitedA = p.commitedA := rfl
      have e2 : (resetOK { p with number := 3 }).tau = p.tau := rfl
      have e3 : (resetOK { p with number := 3 }).save.privXi = p.save.privXi := rfl
      simp only [e0, e1, e2, e3] at h
      cases hX : pub.getD p.index none with
      | none => rw [hX] at h; simp at h
      | some X =>
        cases hA : p.commitedA with
        | none => rw [hX, hA] at h; simp at h
        | some A =>
          cases ht : p.tau with
          | none => rw [hX, hA, ht] at h; simp at h
          | some tau =>
            cases hx : p.save.privXi with
            | none => rw [hX, hA, ht, hx] at h; simp at h
            | some x =>
              rw [hX, hA, ht, hx] at h
              simp only [Prod.mk.injEq, Res.ok.injEq] at h
              obtain ⟨ho, hp'⟩ := h
              refine ⟨pay, pub, X, A, tau, x, hX, rfl, rfl, rfl, g2, g3, ?_, ?_, ho.symm, ?_⟩
              · intro k; rw [g4]; simp only [List.mem_range]; rfl
              · intro k; rw [g5]; simp only [List.mem_range]; rfl
              · rw [← hp', ← ho, ← hA, ← ht, ← hx]; rfl

theorem r3Exec_of_loop {e : Env} {p s1 : Party} {X A : ECPoint} {tau x : Int}
    (hl : forJ (r3Step e) (List.range p.m2.length) (resetOK { p with number := 3 }) = (.ok (), s1))
    (hX : s1.save.pubXj.getD s1.index none = some X) (hA : s1.commitedA = some A) (ht : s1.tau = some tau)
    (hx : s1.save.privXi = some x) :
    r3Exec e p = (.ok (wireBytes (.kg3 (intBytes (Schnorr.Prove e.c.N tau
      (challenge e s1.ssid s1.srid s1.index X A) x)) [] [])),
      { s1 with m3 := s1.m3.set s1.index (wireBytes (.kg3 (intBytes (Schnorr.Prove e.c.N tau
        (challenge e s1.ssid s1.srid s1.index X A) x)) [] [])) }) := by
  unfold r3Exec
  simp only
  rw [show (resetOK { p with number := 3 }).m2.length = p.m2.length from rfl, hl]
  simp only [hX, hA, ht, hx]

theorem opening_spec {c : Curve} {b : Bytes} {o : Opening} (h : opening c b = some o) :
    ∃ xx xy ax ay pn ps pt, parseWireMsg b = some (.kg2 o.ssid o.srid xx xy ax ay o.u pn ps pt) ∧
      o.X = ⟨beNat xx, beNat xy⟩ ∧ o.A = ⟨beNat ax, beNat ay⟩ ∧ c.On o.X ∧ c.On o.A := by
  unfold opening at h
  cases hp : parseWireMsg b with
  | none => rw [hp] at h; simp at h
  | some m =>
    rw [hp] at h
    cases m with
    | kg2 ssid srid xx xy ax ay u pn ps pt =>
      simp only at h
      cases hA : ECPoint.new c (beNat ax) (beNat ay) with
      | none => rw [hA] at h; simp at h
      | some A =>
        cases hX : ECPoint.new c (beNat xx) (beNat xy) with
        | none => rw [hA, hX] at h; simp at h
        | some X =>
          rw [hA, hX] at h
          simp only [Option.some.injEq] at h
          subst h
          refine ⟨xx, xy, ax, ay, pn, ps, pt, rfl, ?_, ?_, new_on hX, new_on hA⟩
          · unfold ECPoint.new at hX; split at hX <;> cases hX; rfl
          · unfold ECPoint.new at hA; split at hA <;> cases hA; rfl
    | _ => simp at h

/-- C18: if round 3 succeeds, then for every other party `j` the stored round-2 message is a round-2
message carrying our session id, both its points are on the curve, and the hash of
(ssid, j, srid, X, A, u) is the commitment recorded for `j`; the points become `j`'s public share and
Schnorr commitment. -/
theorem C18_openings (e : Env) (p p' : Party) (out : Bytes) (h : r3Exec e p = (.ok out, p')) (j : Nat)
    (hj : j < p.m2.length) (hji : j ≠ p.index) (hlp : p.payload.length = p.m2.length)
    (hlx : p.save.pubXj.length = p.m2.length) :
    ∃ srid xx xy ax ay u pn ps pt,
      parseWireMsg (p.m2.getD j []) = some (.kg2 p.ssid srid xx xy ax ay u pn ps pt) ∧
      e.c.isOnCurve (beNat xx) (beNat xy) = true ∧ e.c.isOnCurve (beNat ax) (beNat ay) = true ∧
      e.H (Common.frame [p.ssid, itoa j, srid, natBE (beNat xx), natBE (beNat xy), natBE (beNat ax),
        natBE (beNat ay), u]) = p.V.getD j [] ∧
      p'.save.pubXj.getD j none = some ⟨beNat xx, beNat xy⟩ ∧
      p'.payload.getD j none = some ⟨⟨beNat ax, beNat ay⟩, p.ssid, srid, u⟩ := by
  obtain ⟨h1, pay, pub, X, A, tau, x, -, -, -, -, g2, g3, g4, g5, -, rfl⟩ := r3Exec_ok h
  obtain ⟨o, ho1, ho2, ho3⟩ := h1 j hj hji
  obtain ⟨xx, xy, ax, ay, pn, ps, pt, q1, q2, q3, q4, q5⟩ := opening_spec ho1
  refine ⟨o.srid, xx, xy, ax, ay, o.u, pn, ps, pt, by rw [← ho2]; exact q1, ?_, ?_, ?_, ?_, ?_⟩
  · rw [q2] at q4; exact q4
  · rw [q3] at q5; exact q5
  · rw [← ho3, commitHash, q2, q3]; rfl
  · simp only
    rw [g5, if_pos ⟨hj, hji, by omega⟩, ho1, Option.map_some, q2]
  · simp only
    rw [g4, if_pos ⟨hj, hji, by omega⟩, ho1, Option.map_some, q3, ho2]

/-- C18: the commitments checked in round 3 are those of the round-1 messages present when round 2 ran. -/
theorem C18_round2_records (p p' : Party) (out : Bytes) (h : r2Exec p = (.ok out, p')) (j : Nat)
    (hj : j < p.m1.length) (hV : p.V.length = p.m1.length) :
    ∃ c, parseWireMsg (p.m1.getD j []) = some (.kg1 c) ∧ p'.V.getD j [] = c := by
  unfold r2Exec at h
  simp only at h
  cases hr : forJ r2Step (List.range (resetOK { p with number := 2 }).m1.length) (resetOK { p with number := 2 }) with
  | mk r s1 =>
    rw [hr] at h
    cases r with
    | err er => simp at h
    | panic => simp at h
    | ok u =>
      obtain ⟨h1, h2⟩ := (r2Loop_ok_iff _ _ _).mp hr
      obtain ⟨c, hc⟩ := h1 j (List.mem_range.mpr hj)
      refine ⟨c, hc, ?_⟩
      obtain ⟨V, g1, g2, g3⟩ := r2fold (List.range (resetOK { p with number := 2 }).m1.length)
        (resetOK { p with number := 2 })
      rw [g1] at h2
      have hV' : p'.V = V := by
        subst h2
        simp only at h
        split at h
        · simp only [Prod.mk.injEq] at h; rw [← h.2]
        · simp at h
      rw [hV', g3]
      have hjV : j < (resetOK { p with number := 2 }).V.length := by
        show j < p.V.length; omega
      rw [if_pos ⟨List.mem_range.mpr hj, hjV⟩, hc]

/-- What a round-2 message of party `j` opens: the eight parts its commitment must be the hash of (the session id, the index, the
contribution to the common randomness, the coordinates of the public share and of the Schnorr commitment, the blinding bytes). -/
def spec.opening (j : Nat) (m : Bytes) : List Bytes :=
  match parseWireMsg m with
  | some (.kg2 ssid srid xx xy ax ay u _ _ _) =>
    [ssid, itoa j, srid, natBE (beNat xx), natBE (beNat xy), natBE (beNat ax), natBE (beNat ay), u]
  | _ => []

/-- C18: binding.  Two round-3 runs (of any two parties) that recorded the same commitment for `j` have
accepted the same opening, or the parts that the two round-2 messages open are different and have the same hash. -/
theorem C18_binding (e : Env) (p q p' q' : Party) (out out' : Bytes) (h : r3Exec e p = (.ok out, p'))
    (h' : r3Exec e q = (.ok out', q')) (j : Nat) (hj : j < p.m2.length) (hji : j ≠ p.index)
    (hj' : j < q.m2.length) (hji' : j ≠ q.index) (hV : p.V.getD j [] = q.V.getD j [])
    (hlp : p.payload.length = p.m2.length) (hlx : p.save.pubXj.length = p.m2.length)
    (hlp' : q.payload.length = q.m2.length) (hlx' : q.save.pubXj.length = q.m2.length) :
    (∃ X pl, p'.save.pubXj.getD j none = some X ∧ q'.save.pubXj.getD j none = some X ∧
      p'.payload.getD j none = some pl ∧ q'.payload.getD j none = some pl) ∨
    (spec.opening j (p.m2.getD j []) ≠ spec.opening j (q.m2.getD j []) ∧
      e.H (Common.frame (spec.opening j (p.m2.getD j []))) = e.H (Common.frame (spec.opening j (q.m2.getD j [])))) := by
  obtain ⟨s, xx, xy, ax, ay, u, pn, ps, pt, a1, -, -, a4, a5, a6⟩ := C18_openings e p p' out h j hj hji hlp hlx
  obtain ⟨s', xx', xy', ax', ay', u', pn', ps', pt', b1, -, -, b4, b5, b6⟩ := C18_openings e q q' out' h' j hj' hji' hlp' hlx'
  have o1 : spec.opening j (p.m2.getD j []) =
      [p.ssid, itoa j, s, natBE (beNat xx), natBE (beNat xy), natBE (beNat ax), natBE (beNat ay), u] := by
    unfold spec.opening; rw [a1]
  have o2 : spec.opening j (q.m2.getD j []) =
      [q.ssid, itoa j, s', natBE (beNat xx'), natBE (beNat xy'), natBE (beNat ax'), natBE (beNat ay'), u'] := by
    unfold spec.opening; rw [b1]
  rw [o1, o2]
  by_cases heq : [p.ssid, itoa j, s, natBE (beNat xx), natBE (beNat xy), natBE (beNat ax), natBE (beNat ay), u] =
      [q.ssid, itoa j, s', natBE (beNat xx'), natBE (beNat xy'), natBE (beNat ax'), natBE (beNat ay'), u']
  · left
    simp only [List.cons.injEq, and_true, true_and] at heq
    obtain ⟨e1, e2, e3, e4, e5, e6, e7⟩ := heq
    have f3 := natBE_injective e3
    have f4 := natBE_injective e4
    have f5 := natBE_injective e5
    have f6 := natBE_injective e6
    refine ⟨_, _, a5, ?_, a6, ?_⟩
    · rw [b5, f3, f4]
    · rw [b6, e1, e2, f5, f6, e7]
  · exact .inr ⟨heq, by rw [a4, b4, hV]⟩

/-! ### C19 -/

/-- xor of a list of byte strings -/
def xorAll (l : List Bytes) : Bytes := l.foldl xorBytes []

theorem foldl_xor (s : Bytes) (l : List Bytes) : l.foldl xorBytes s = xorBytes s (xorAll l) := by
  induction l generalizing s with
  | nil => simp [xorAll, xorBytes_nil]
  | cons a t ih =>
    have h2 : xorAll (a :: t) = xorBytes a (xorAll t) := by
      have : xorBytes [] a = a := by rw [xorBytes_comm, xorBytes_nil]
      simp only [xorAll, List.foldl_cons, this]
      exact ih a
    rw [List.foldl_cons, ih, h2, xorBytes_assoc]

theorem xorAll_length_le (l : List Bytes) (n : Nat) (h : ∀ b ∈ l, b.length ≤ n) : (xorAll l).length ≤ n := by
  suffices ∀ s : Bytes, s.length ≤ n → (l.foldl xorBytes s).length ≤ n from this [] (by simp)
  induction l with
  | nil => intro s hs; exact hs
  | cons a t ih =>
    intro s hs
    refine ih (fun b hb => h b (by simp [hb])) _ ?_
    rw [xorBytes_length]
    have := h a (by simp)
    omega

/-- the random contributions of the other parties, in index order -/
def peerSrids (c : Curve) (p : Party) : List Bytes :=
  ((List.range p.m2.length).filter fun j => j ≠ p.index).map (sridOf c p)

theorem sridFold_eq (c : Curve) (p : Party) :
    sridFold c p (List.range p.m2.length) = xorBytes p.srid (xorAll (peerSrids c p)) := by
  rw [← foldl_xor]
  unfold sridFold peerSrids
  generalize p.srid = s
  induction List.range p.m2.length generalizing s with
  | nil => rfl
  | cons a t ih =>
    by_cases ha : a = p.index
    · simp [ha, ih]
    · simp [ha, ih]

/-- C19: a single successful run sets the session randomness to own xor the contributions of all peers,
and answers the challenge for it. -/
theorem C19_single_run (e : Env) (p p' : Party) (out : Bytes) (h : r3Exec e p = (.ok out, p')) :
    p'.srid = xorBytes p.srid (xorAll (peerSrids e.c p)) ∧
    ∃ X A tau x, p'.save.pubXj.getD p.index none = some X ∧ p.commitedA = some A ∧ p.tau = some tau ∧
      p.save.privXi = some x ∧
      out = wireBytes (.kg3 (intBytes (Schnorr.Prove e.c.N tau (challenge e p.ssid p'.srid p.index X A) x)) [] []) := by
  obtain ⟨-, pay, pub, X, A, tau, x, h1, h2, h3, h4, -, -, -, -, h5, rfl⟩ := r3Exec_ok h
  refine ⟨sridFold_eq e.c p, X, A, tau, x, h1, h2, h3, h4, h5⟩

/-- C19: a second run (nothing else happening in between) succeeds again, and if no contribution is
longer than our own it removes all peers' contributions from the session randomness: the randomness is
the party's own again, and the emitted proof answers the challenge for that, not the one the peers
check. -/
theorem C19_second_run (e : Env) (p p' : Party) (out : Bytes) (h : r3Exec e p = (.ok out, p'))
    (hl : ∀ b ∈ peerSrids e.c p, b.length ≤ p.srid.length) :
    ∃ out2 p2 X A tau x, r3Exec e p' = (.ok out2, p2) ∧ p2.srid = p.srid ∧
      p.commitedA = some A ∧ p.tau = some tau ∧ p.save.privXi = some x ∧
      p'.save.pubXj.getD p.index none = some X ∧
      out2 = wireBytes (.kg3 (intBytes (Schnorr.Prove e.c.N tau (challenge e p.ssid p.srid p.index X A) x)) [] []) := by
  obtain ⟨hacc, pay, pub, X, A, tau, x, h1, h2, h3, h4, g2, g3, g4, g5, h5, rfl⟩ := r3Exec_ok h
  have hs := sridFold_eq e.c p
  generalize hS : sridFold e.c p (List.range p.m2.length) = S at *
  -- the second run
  have hloop : ∃ s1, forJ (r3Step e) (List.range p.m2.length) (resetOK { { p with
        number := 3
        ok := p.ok.map fun _ => false
        payload := pay
        save := { p.save with pubXj := pub }
        srid := S
        m3 := p.m3.set p.index out } with number := 3 }) = (.ok (), s1) := by
    refine ⟨_, (r3Loop_ok_iff e _ _ _).mpr ⟨?_, rfl⟩⟩
    intro j hj hji
    obtain ⟨o, ho⟩ := hacc j (List.mem_range.mp hj) hji
    exact ⟨o, ho⟩
  obtain ⟨s1, hs1⟩ := hloop
  obtain ⟨k1, k2⟩ := (r3Loop_ok_iff e _ _ _).mp hs1
  obtain ⟨pay2, pub2, f1, f2, f3, f4, f5⟩ := r3fold e (List.range p.m2.length) (resetOK { { p with
        number := 3
        ok := p.ok.map fun _ => false
        payload := pay
        save := { p.save with pubXj := pub }
        srid := S
        m3 := p.m3.set p.index out } with number := 3 }) (fun j hj hji => by
          obtain ⟨o, ho⟩ := k1 j hj hji
          exact ⟨o, ho.1⟩)
  rw [f1] at k2
  have hidx : pub2.getD p.index none = some X := by
    rw [f5, if_neg (by rintro ⟨-, hh, -⟩; exact hh rfl)]; exact h1
  have hsrid : sridFold e.c (resetOK { { p with
        number := 3
        ok := p.ok.map fun _ => false
        payload := pay
        save := { p.save with pubXj := pub }
        srid := S
        m3 := p.m3.set p.index out } with number := 3 }) (List.range p.m2.length) = p.srid := by
    refine (sridFold_eq e.c (resetOK { { p with
        number := 3
        ok := p.ok.map fun _ => false
        payload := pay
        save := { p.save with pubXj := pub }
        srid := S
        m3 := p.m3.set p.index out } with number := 3 })).trans ?_
    show xorBytes S (xorAll (peerSrids e.c p)) = p.srid
    rw [hs]
    exact xorBytes_cancel _ _ (xorAll_length_le _ _ hl)
  rw [hsrid] at k2
  subst k2
  refine ⟨_, { p with
        number := 3
        ok := (p.ok.map fun _ => false).map fun _ => false
        payload := pay2
        save := { p.save with pubXj := pub2 }
        m3 := (p.m3.set p.index out).set p.index (wireBytes (.kg3 (intBytes (Schnorr.Prove e.c.N tau
          (challenge e p.ssid p.srid p.index X A) x)) [] [])) }, X, A, tau, x, ?_, rfl, h2, h3, h4, h1, rfl⟩
  refine (r3Exec_of_loop (s1 := _) (X := X) (A := A) (tau := tau) (x := x) hs1 ?_ ?_ ?_ ?_).trans rfl
  · exact hidx
  · exact h2
  · exact h3
  · exact h4

/-! ### C20 -/

/-- C20: round 4 succeeds only if every peer's round-3 message is a Schnorr proof of knowledge of the
discrete logarithm of its public share for its committed nonce and the derived challenge, and then the
public key saved and returned is the sum of all public shares. -/
theorem C20_round4 {G : Type} [AddCommGroup G] (e : Env) (L : Lawful e.c G) (p p' : Party) (out : Bytes)
    (hinv : PInv e p) (h : r4Exec e p = (.ok out, p')) :
    (∀ j, j < p.ids.length → j ≠ p.index → ∃ z ms pm X pl,
      parseWireMsg (p.m3.getD j []) = some (.kg3 z ms pm) ∧ p.save.pubXj.getD j none = some X ∧
      p.payload.getD j none = some pl ∧
      (beNat z : Int) • L.base =
        L.val pl.commitedA + challenge e p.ssid p.srid j X pl.commitedA • L.val X) ∧
    ∃ S, p'.save.eddsaPub = some S ∧ e.c.On S ∧ (∀ o ∈ p.save.pubXj, o ≠ none) ∧
      L.val S = (p.save.pubXj.map fun o => match o with | some X => L.val X | none => 0).sum ∧
      e.jsonEnc p'.save = some out ∧ p'.save = { p.save with eddsaPub := some S } := by
  unfold r4Exec at h
  simp only at h
  cases hr : forJ (r4Step e) (List.range (resetOK { p with number := 4 }).m3.length) (resetOK { p with number := 4 }) with
  | mk r s1 =>
    rw [hr] at h
    cases r with
    | err er => simp at h
    | panic => simp at h
    | ok u =>
      obtain ⟨h1, h2⟩ := (r4Loop_ok_iff e _ _ _).mp hr
      subst h2
      constructor
      · intro j hj hji
        have hj' : j < p.m3.length := by rw [hinv.lm3]; exact hj
        obtain ⟨z, ms, pm, X, pl, q1, q2, q3, q4⟩ := h1 j (List.mem_range.mpr hj') hji
        have q2' : p.save.pubXj.getD j none = some X := q2
        have q3' : p.payload.getD j none = some pl := q3
        refine ⟨z, ms, pm, X, pl, q1, q2', q3', ?_⟩
        have hX : e.c.On X := hinv.pub_on X (by
          rw [← q2', List.getD_eq_getElem?_getD]
          have : j < p.save.pubXj.length := by rw [hinv.lpub]; exact hj
          rw [List.getElem?_eq_getElem this]; exact List.getElem_mem this)
        have hA : e.c.On pl.commitedA := hinv.pay_on pl (by
          rw [← q3', List.getD_eq_getElem?_getD]
          have : j < p.payload.length := by rw [hinv.lpay]; exact hj
          rw [List.getElem?_eq_getElem this]; exact List.getElem_mem this)
        obtain ⟨b, hb1, hb2⟩ := Schnorr.C29_verify_exact L (beNat z)
          (challenge e p.ssid p.srid j X pl.commitedA) pl.commitedA X hA hX
        have q4' : Schnorr.Verify e.c (beNat z) pl.commitedA X (challenge e p.ssid p.srid j X pl.commitedA) = .ok true := q4
        rw [q4'] at hb1
        simp only [Res.ok.injEq] at hb1
        have := hb2.mp hb1.symm
        rw [this]
        congr 2
        unfold challenge
        exact Int.emod_emod_of_dvd _ (dvd_refl _)
      · have hsave : (resetOK { p with number := 4 }).save = p.save := rfl
        simp only [hsave] at h
        cases hpub : p.save.pubXj with
        | nil => rw [hpub] at h; simp at h
        | cons o t =>
          cases o with
          | none => rw [hpub] at h; simp at h
          | some X0 =>
            rw [hpub] at h
            simp only at h
            cases hsum : sumPub e.c 1 X0 t with
            | err er => rw [hsum] at h; simp at h
            | panic => rw [hsum] at h; simp at h
            | ok s =>
              rw [hsum] at h
              simp only at h
              have hon : ∀ X, some X ∈ p.save.pubXj → e.c.On X := hinv.pub_on
              rw [hpub] at hon
              obtain ⟨k1, k2, k3⟩ := sumPub_lawful L 1 X0 (hon X0 (by simp)) t s (fun X hX => hon X (by simp [hX])) hsum
              split at h
              · next b hb =>
                simp only [Prod.mk.injEq, Res.ok.injEq] at h
                obtain ⟨rfl, rfl⟩ := h
                refine ⟨s, rfl, k2, ?_, ?_, ?_, ?_⟩
                · intro o ho
                  rcases List.mem_cons.mp ho with rfl | ho
                  · simp
                  · exact k1 o ho
                · rw [k3]; simp; rfl
                · exact hb
                · simp only [hpub]
              · simp at h

/-- C20 for every party object that any history of calls can produce. -/
theorem C20_reachable {G : Type} [AddCommGroup G] (e : Env) (L : Lawful e.c G) (r r' : Reg) (key : Bytes) (p : Party)
    (out : Bytes) (hr : Reach e r) (hp : r key = some p) (h : KeygenRound4Exec e r key = (.ok out, r')) :
    ∃ p' S, r' key = some p' ∧ p'.save.eddsaPub = some S ∧
      L.val S = (p.save.pubXj.map fun o => match o with | some X => L.val X | none => 0).sum ∧
      (∀ j, j < p.ids.length → j ≠ p.index → ∃ z ms pm X pl,
        parseWireMsg (p.m3.getD j []) = some (.kg3 z ms pm) ∧ p.save.pubXj.getD j none = some X ∧
        p.payload.getD j none = some pl ∧
        (beNat z : Int) • L.base =
          L.val pl.commitedA + challenge e p.ssid p.srid j X pl.commitedA • L.val X) := by
  unfold KeygenRound4Exec at h
  rw [withParty_some _ hp] at h
  simp only [Prod.mk.injEq] at h
  have h4 : r4Exec e p = (.ok out, (r4Exec e p).2) := by rw [← h.1]
  obtain ⟨a, S, b1, -, -, b4, -⟩ := C20_round4 e L p _ out (reach_inv e hr key p hp) h4
  exact ⟨_, S, by rw [← h.2]; simp, b1, b4, a⟩

/-! ### C22 for histories -/

/-- C22: for every party any history of calls can produce, round 1 uses the stored share and ignores the
random one. -/
theorem C22_reachable (e : Env) (r : Reg) (hr : Reach e r) (key : Bytes) (rnd : Rand1) (v : Int) :
    KeygenRound1Exec e rnd r key = KeygenRound1Exec e { rnd with priv := v } r key := by
  unfold KeygenRound1Exec
  cases hp : r key with
  | none => rw [withParty_none _ hp, withParty_none _ hp]
  | some p =>
    obtain ⟨x, -, hx⟩ := (reach_inv e hr key p hp).priv
    rw [withParty_some _ hp, withParty_some _ hp, C22_random_share_unused e rnd v p x hx]

/-! ### a concrete run meeting the hypotheses of C18 - C20 (two parties on the toy curve) -/

/-- toy environment -/
def exEnv2 : Env where
  c := toyCurve
  H b := [UInt8.ofNat (beNat b % 251), UInt8.ofNat b.length]
  jsonEnc _ := some [123, 125]

/-- fresh party i of two, root key 7 + i -/
def ex0 (i : Nat) : Party := freshParty 2 i [⟨"0", "m_0", some [3], 0⟩, ⟨"1", "m_1", some [5], 1⟩] (7 + i)
/-- after round 1 -/
def ex1 (i : Nat) : Party := (r1Exec exEnv2 ⟨0, 3 + i, [1], [UInt8.ofNat (i + 5), 4]⟩ (ex0 i)).2
/-- with both round-1 messages, after round 2 -/
def ex2 (i : Nat) : Party := (r2Exec { ex1 i with m1 := [(ex1 0).m1.getD 0 [], (ex1 1).m1.getD 1 []] }).2
/-- with both round-2 messages -/
def ex2' (i : Nat) : Party := { ex2 i with m2 := [(ex2 0).m2.getD 0 [], (ex2 1).m2.getD 1 []] }
/-- after round 3 with both round-3 messages -/
def ex3' (i : Nat) : Party :=
  { (r3Exec exEnv2 (ex2' i)).2 with
    m3 := [(r3Exec exEnv2 (ex2' 0)).2.m3.getD 0 [], (r3Exec exEnv2 (ex2' 1)).2.m3.getD 1 []] }

/-- round 3 succeeds, the contributions are as long as our own, and a second run gives another message -/
example : (r3Exec exEnv2 (ex2' 0)).1.isOk = true ∧ (ex2' 0).m2.length = 2 ∧ (ex2' 0).payload.length = 2 ∧
    (ex2' 0).save.pubXj.length = 2 ∧ (peerSrids toyCurve (ex2' 0)) = [[6, 4]] ∧ (ex2' 0).srid = [5, 4] ∧
    (r3Exec exEnv2 (ex2' 0)).2.srid = [3, 0] ∧ (r3Exec exEnv2 (r3Exec exEnv2 (ex2' 0)).2).2.srid = [5, 4] ∧
    (r3Exec exEnv2 (r3Exec exEnv2 (ex2' 0)).2).1 ≠ (r3Exec exEnv2 (ex2' 0)).1 := by
  decide +kernel

/-- round 4 succeeds -/
example : (r4Exec exEnv2 (ex3' 0)).1.isOk = true ∧ (r4Exec exEnv2 (ex3' 0)).2.save.eddsaPub = some ⟨4, 0⟩ ∧
    (r4Exec exEnv2 (ex3' 1)).2.save.eddsaPub = some ⟨4, 0⟩ := by
  decide +kernel

/-- after a second round 3 of party 0 its message makes party 1 reject in round 4 -/
example : (r4Exec exEnv2 { ex3' 1 with
    m3 := [(r3Exec exEnv2 (r3Exec exEnv2 (ex2' 0)).2).2.m3.getD 0 [], (ex3' 1).m3.getD 1 []] }).1 =
    .err (.schnorr 0) := by
  decide +kernel

end Tss.Keygen
