import Verif.Props.Equivocation
/-! C16 and C18 for the exported calls and every reachable registry: nothing about the sizes of a party's lists is assumed. -/
namespace Tss.Keygen
open Tss Text Wire

/-- C18. The exported third round, in every reachable registry: if it returns Ok, every other party's stored round-2 message carries our
session id and two points of the curve, and the hash of (ssid, j, srid, X, A, u) is the commitment the party recorded for `j`; X and A
are what it holds of `j` from then on. -/
theorem C18_round3 {e : Env} {r r' : Reg} {key out : Bytes} (hr : Reach e r) (h : KeygenRound3Exec e r key = (.ok out, r')) :
    ∃ p p', r key = some p ∧ r' key = some p' ∧ ∀ j, j < p.ids.length → j ≠ p.index → ∃ srid xx xy ax ay u pn ps pt,
      parseWireMsg (p.m2.getD j []) = some (.kg2 p.ssid srid xx xy ax ay u pn ps pt) ∧
      e.c.isOnCurve (beNat xx) (beNat xy) = true ∧ e.c.isOnCurve (beNat ax) (beNat ay) = true ∧
      e.H (Common.frame [p.ssid, itoa j, srid, natBE (beNat xx), natBE (beNat xy), natBE (beNat ax), natBE (beNat ay), u]) =
        p.V.getD j [] ∧
      p'.save.pubXj.getD j none = some ⟨beNat xx, beNat xy⟩ ∧
      p'.payload.getD j none = some ⟨⟨beNat ax, beNat ay⟩, p.ssid, srid, u⟩ := by
  obtain ⟨p, p', h1, h2, h3⟩ := withParty_ok h
  have hi := reach_inv e hr key p h1
  exact ⟨p, p', h1, h3, fun j hj hji => C18_openings e p p' out h2 j (by rw [hi.lm2]; exact hj) hji
    (by rw [hi.lpay, hi.lm2]) (by rw [hi.lpub, hi.lm2])⟩

/-- C18. The whole story of a commitment. The party runs round 2 with Ok; then anything happens (but its key is not created, removed or
sent back to rounds 1 and 2); then it runs round 3 with Ok. For every other party `j`, the round-1 message present at round 2 is a
commitment `c`, and the round-2 message present at round 3 opens exactly `c` to the share that the party then holds for `j`. -/
theorem C18_commit_then_open {e : Env} {r r2 r3 : Reg} {key w out : Bytes} {ops : List Op} (hr : Reach e r)
    (h2 : KeygenRound2Exec r key = (.ok w, r2)) (hops : spec.After 2 key ops)
    (h3 : KeygenRound3Exec e (runOps e ops r2) key = (.ok out, r3)) :
    ∃ p q q', r key = some p ∧ runOps e ops r2 key = some q ∧ r3 key = some q' ∧ q.index = p.index ∧ q.ids = p.ids ∧
      ∀ j, j < p.ids.length → j ≠ p.index → ∃ c srid xx xy ax ay u pn ps pt,
        parseWireMsg (p.m1.getD j []) = some (.kg1 c) ∧
        parseWireMsg (q.m2.getD j []) = some (.kg2 q.ssid srid xx xy ax ay u pn ps pt) ∧
        e.H (Common.frame [q.ssid, itoa j, srid, natBE (beNat xx), natBE (beNat xy), natBE (beNat ax), natBE (beNat ay), u]) = c ∧
        e.c.isOnCurve (beNat xx) (beNat xy) = true ∧ e.c.isOnCurve (beNat ax) (beNat ay) = true ∧
        q'.save.pubXj.getD j none = some ⟨beNat xx, beNat xy⟩ := by
  obtain ⟨p, p2, a1, a2, a3⟩ := withParty_ok h2
  have hip := reach_inv e hr key p a1
  have hr2 : Reach e r2 := by
    have := Reach.step (Op.exec2 key) hr
    rwa [show ((Op.exec2 key).run e r).2 = r2 by show (KeygenRound2Exec r key).2 = r2; rw [h2]] at this
  obtain ⟨q, q', b1, b2, b3⟩ := C18_round3 (reach_runOps ops hr2) h3
  obtain ⟨q1, c1, k1⟩ := runOps_keeps e key (by omega) ops r2 p2 a3 hops
  rw [b1] at c1; cases c1
  have k0 : Keeps 1 p p2 := by have := r2Exec_keeps p; rwa [a2] at this
  have hidx : q.index = p.index := k1.idx.trans k0.idx
  have hids : q.ids = p.ids := k1.ids.trans k0.ids
  refine ⟨p, q, q', a1, b1, b2, hidx, hids, fun j hj hji => ?_⟩
  obtain ⟨srid, xx, xy, ax, ay, u, pn, ps, pt, g1, g2, g3, g4, g5, -⟩ := b3 j (by rw [hids]; exact hj) (by rw [hidx]; exact hji)
  obtain ⟨c, f1, f2⟩ := C18_round2_records p p2 w a2 j (by rw [hip.lm1]; exact hj) (by rw [hip.lV, hip.lm1])
  refine ⟨c, srid, xx, xy, ax, ay, u, pn, ps, pt, f1, g1, ?_, g2, g3, g5⟩
  rw [g4, k1.V (by omega), f2]

/-- C16. What a stored malformed message does to the next round, in every reachable registry: rounds 2, 3 and 4 do not return Ok while
the stored message of some other party from the round before is not a message of that round. -/
theorem C16_next_exec_fails {e : Env} {r : Reg} {key : Bytes} {p : Party} (hr : Reach e r) (hk : r key = some p) (j : Nat)
    (hj : j < p.ids.length) (hji : j ≠ p.index) :
    ((∀ c, parseWireMsg (p.m1.getD j []) ≠ some (.kg1 c)) → ∀ out, (KeygenRound2Exec r key).1 ≠ .ok out) ∧
    ((∀ a b c d f g k l m n, parseWireMsg (p.m2.getD j []) ≠ some (.kg2 a b c d f g k l m n)) →
      ∀ out, (KeygenRound3Exec e r key).1 ≠ .ok out) ∧
    ((∀ a b c, parseWireMsg (p.m3.getD j []) ≠ some (.kg3 a b c)) → ∀ out, (KeygenRound4Exec e r key).1 ≠ .ok out) := by
  have hi := reach_inv e hr key p hk
  refine ⟨fun hb out ho => ?_, fun hb out ho => ?_, fun hb out ho => ?_⟩
  · obtain ⟨p0, p', h1, h2, -⟩ := withParty_ok (Prod.ext ho rfl : KeygenRound2Exec r key = (.ok out, (KeygenRound2Exec r key).2))
    rw [hk] at h1; cases h1
    obtain ⟨c, hc, -⟩ := C18_round2_records p p' out h2 j (by rw [hi.lm1]; exact hj) (by rw [hi.lV, hi.lm1])
    exact hb c hc
  · obtain ⟨p0, _, h1, _, h3⟩ := C18_round3 hr (Prod.ext ho rfl : KeygenRound3Exec e r key = (.ok out, (KeygenRound3Exec e r key).2))
    rw [hk] at h1; cases h1
    obtain ⟨srid, xx, xy, ax, ay, u, pn, ps, pt, g1, -⟩ := h3 j hj hji
    exact hb _ _ _ _ _ _ _ _ _ _ g1
  · obtain ⟨p0, p', h1, h2, -⟩ := withParty_ok (Prod.ext ho rfl : KeygenRound4Exec e r key = (.ok out, (KeygenRound4Exec e r key).2))
    rw [hk] at h1; cases h1
    unfold r4Exec at h2
    simp only at h2
    cases hl : forJ (r4Step e) (List.range (resetOK { p with number := 4 }).m3.length) (resetOK { p with number := 4 }) with
    | mk r1 s1 =>
      rw [hl] at h2
      cases r1 with
      | err er => simp at h2
      | panic => simp at h2
      | ok u =>
        obtain ⟨z, ms, pm, X, pl, q1, -⟩ := ((r4Loop_ok_iff e _ _ _).mp hl).1 j
          (List.mem_range.mpr (by show j < p.m3.length; rw [hi.lm3]; exact hj)) hji
        exact hb _ _ _ q1

/-- C16. So the sequence good message, garbage, finish, next round: finish of the round says Ok and the next round
does not. -/
theorem C16_garbage_then_next {e : Env} {rd : Round} {r : Reg} {key : Bytes} {p : Party} (hr : Reach e r) (hk : r key = some p)
    (frm : Nat) (hf : frm < p.ids.length) (hne : frm ≠ p.index) (msg b : Bytes) (hm : b64Decode msg = some b) (hb : b ≠ [])
    (hbad : parseWireMsg b = none) (hall : ∀ j, j < p.ids.length → j ≠ p.index → (rd.msgs p).getD j [] ≠ []) :
    ∃ r', rd.accept r key frm msg = (.err .parse, r') ∧ (rd.finish r' key).1 = .ok () ∧
      match rd with
      | .one => ∀ out, (KeygenRound2Exec r' key).1 ≠ .ok out
      | .two => ∀ out, (KeygenRound3Exec e r' key).1 ≠ .ok out
      | .three => ∀ out, (KeygenRound4Exec e r' key).1 ≠ .ok out := by
  have hi := reach_inv e hr key p hk
  have hl : (rd.msgs p).length = p.ids.length := by cases rd <;> first | exact hi.lm1 | exact hi.lm2 | exact hi.lm3
  obtain ⟨r', h1, h2, p', h3, h4⟩ := C16_rejected_message_overwrites rd r key p hk frm (by rw [hl]; exact hf) msg b hm hb hbad
    (by rw [hl]; exact hall)
  refine ⟨r', h1, h2, ?_⟩
  obtain ⟨e1, -⟩ := C15_accept_effect rd r key p hk frm msg b hm ⟨by omega, by rw [hl]; exact_mod_cast hf⟩
  rw [h1] at e1
  simp only at e1
  have hp' : p' = rd.put p ((rd.msgs p).set frm b) := by
    rw [e1] at h3
    simpa using h3.symm
  have hids : p'.ids = p.ids ∧ p'.index = p.index := by rw [hp']; cases rd <;> exact ⟨rfl, rfl⟩
  have hr' : Reach e r' := by
    have := Reach.step (Op.acc rd key frm msg) hr
    rwa [show ((Op.acc rd key frm msg).run e r).2 = r' by show (rd.accept r key frm msg).2 = r'; rw [h1]] at this
  obtain ⟨n1, n2, n3⟩ := C16_next_exec_fails hr' h3 frm (by rw [hids.1]; exact hf) (by rw [hids.2]; exact hne)
  cases rd
  · exact n1 fun c hc => by rw [show p'.m1.getD frm [] = b from h4, hbad] at hc; cases hc
  · exact n2 fun _ _ _ _ _ _ _ _ _ _ hc => by rw [show p'.m2.getD frm [] = b from h4, hbad] at hc; cases hc
  · exact n3 fun _ _ _ hc => by rw [show p'.m3.getD frm [] = b from h4, hbad] at hc; cases hc

/-- C16, C18: the hypotheses are met: in the honest run of C21 with three parties every call returns Ok, so round 3 does after round 2
with the accepts in between. -/
theorem C18_example : ∃ (e : Env) (r r2 r3 : Reg) (key w out : Bytes) (ops : List Op), Reach e r ∧
    KeygenRound2Exec r key = (.ok w, r2) ∧ spec.After 2 key ops ∧ KeygenRound3Exec e (runOps e ops r2) key = (.ok out, r3) := by
  obtain ⟨p, a1, -⟩ := client_ok exGood (fun _ => none) (i := 0) (by decide)
  obtain ⟨M, M2, ⟨r0, r1, r2, ops1, w2, q, hr, h1, -, -, -, h2, hc⟩, -⟩ := client_ran .init a1
  have hr1 : Reach exEnv r1 := by
    have := Reach.step (Op.exec1 [0] (exSession.rnd 0)) hr
    simp only [Op.run, show KeygenRound1Exec exEnv (exSession.rnd 0) r0 [0] = _ from h1] at this
    exact this
  obtain ⟨ops2, ops3, w3, out, r3, r4, qm, a2, -, -, h3, -⟩ := hc
  exact ⟨exEnv, _, r2, r3, [0], w2, w3, ops2, reach_runOps ops1 hr1, h2, a2, h3⟩

end Tss.Keygen
