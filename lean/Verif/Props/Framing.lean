import Verif.Props.Blame
/-! C81: why the round-4 theorem needs equal round-2 messages: a peer that equivocates makes honest parties blame each
other. -/
namespace Tss.Keygen
open Tss Text Wire

variable {G : Type} [AddCommGroup G]

/-- A client of party `i` follows the protocol up to the point where round 4 can be run: rounds 1 and 2 with the messages
`view` of the others, and then the round-3 messages `view3` of the others. Every call returns Ok, rounds 1 to 3 return
`view .one i`, `view .two i`, `w3`, and the registry is `r'` at the end. -/
def spec.Client3 (e : Env) (S : Session) (i : Nat) (view : Round → Nat → Bytes) (view3 : Nat → Bytes) (r : Reg) (w3 : Bytes) (r' : Reg) :
    Prop :=
  ∃ r0 r1 r2 r3 r4 r5 : Reg,
    NewLocalParty r (S.key i) i S.n S.pIDs (S.root i) = (.ok (), r0) ∧
    KeygenRound1Exec e (S.rnd i) r0 (S.key i) = (.ok (view .one i), r1) ∧
    spec.Hands .one (S.key i) (view .one) ((List.range S.n).filter (· ≠ i)) r1 r2 ∧
    KeygenRound2Exec r2 (S.key i) = (.ok (view .two i), r3) ∧
    spec.Hands .two (S.key i) (view .two) ((List.range S.n).filter (· ≠ i)) r3 r4 ∧
    KeygenRound3Exec e r4 (S.key i) = (.ok w3, r5) ∧
    spec.Hands .three (S.key i) view3 ((List.range S.n).filter (· ≠ i)) r5 r'

/-- every message of the right type is accepted -/
theorem hands_any (rd : Round) {key : Bytes} {view : Nat → Bytes} : ∀ (l : List Nat) (r : Reg) (p : Party), r key = some p →
    (∀ j ∈ l, j < (rd.msgs p).length) → (∀ j ∈ l, ∃ c, parseWireMsg (view j) = some c ∧ c.kind = rd.kind) →
    ∃ r', spec.Hands rd key view l r r'
  | [], r, _, _, _, _ => ⟨r, .nil r⟩
  | j :: l, r, p, hp, hl, hv => by
    obtain ⟨a1, a2, -, -⟩ := C15_accept_effect rd r key p hp j _ _ (b64_round_trip (view j))
      ⟨by omega, by have := hl j (by simp); omega⟩
    have hok := a2.mpr (hv j (by simp))
    rw [Int.toNat_natCast] at a1
    obtain ⟨r', h⟩ := hands_any rd l (rd.accept r key (j : Int) (b64Encode (view j))).2
      (rd.put p ((rd.msgs p).set j (view j))) (by rw [a1]; exact set_same _ _ _)
      (by intro j' h'; rw [put_msgs, if_pos rfl, List.length_set]; exact hl j' (by simp [h']))
      (fun j' h' => hv j' (by simp [h']))
    exact ⟨r', .cons (Prod.ext hok rfl) h⟩

/-- a loop that changes nothing stops at its first error -/
theorem forJ_first {σ ε : Type} {step : σ → Nat → Res ε Unit × σ} {s : σ} {f : Nat → ε} {Q : Nat → Prop} : ∀ (l : List Nat),
    (∀ j ∈ l, step s j = (.ok (), s) ∨ (step s j = (.err (f j), s) ∧ Q j)) → (∃ j ∈ l, step s j ≠ (.ok (), s)) →
    ∃ j ∈ l, Q j ∧ forJ step l s = (.err (f j), s)
  | [], _, h => by obtain ⟨j, hj, -⟩ := h; simp at hj
  | a :: t, hs, h => by
    rcases hs a (by simp) with h1 | ⟨h1, hq⟩
    · obtain ⟨j, hj, hne⟩ := h
      have hjt : j ∈ t := by
        rcases List.mem_cons.mp hj with rfl | h'
        · exact absurd h1 hne
        · exact h'
      obtain ⟨k, hk, hq, hf⟩ := forJ_first t (fun j hj => hs j (by simp [hj])) ⟨j, hjt, hne⟩
      refine ⟨k, by simp [hk], hq, ?_⟩
      simp only [forJ, h1]
      exact hf
    · refine ⟨a, by simp, hq, ?_⟩
      simp only [forJ, h1]

/-- an honest party up to round 4, with any readable round-3 messages -/
theorem client3_ok {e : Env} {L : Lawful e.c G} {S : Session} (hg : Good e L S) (r : Reg) {i : Nat} (hi : i < S.n)
    (view3 : Nat → Bytes) (hv : ∀ j, j < S.n → ∃ z ms pm, parseWireMsg (view3 j) = some (.kg3 z ms pm)) :
    ∃ r' p, spec.Client3 e S i (fun rd j => wireBytes (cont e L S rd j)) view3 r (wireBytes (cont e L S .three i)) r' ∧
      r' (S.key i) = some p ∧ p.index = i ∧ p.m3.length = S.n ∧ p.ssid = ssidConst ∧ p.srid = common S ∧
      (∀ j, j < S.n → j ≠ i → p.m3.getD j [] = view3 j ∧ p.save.pubXj.getD j none = some (shareX e L S j) ∧
        p.payload.getD j none = some ⟨shareA e L S j, ssidConst, (S.rnd j).srid, (S.rnd j).u⟩) := by
  have hl : ∀ j ∈ (List.range S.n).filter (· ≠ i), j < S.n := by
    intro j hj; simp only [List.mem_filter, List.mem_range] at hj; exact hj.1
  have p0 := PI.fresh (e := e) (L := L) (S := S) i (fun _ _ => false) (fun _ _ => rfl)
  obtain ⟨q1, a1, p1⟩ := p0.exec1 hi
  obtain ⟨r2, q2, b2, c2, p2⟩ := hands_ok hg .one _ hl
    ((r.set (S.key i) (some (freshParty S.n i (sortedIds S) (S.x i)))).set (S.key i) (some q1)) q1 _ (set_same _ _ _) p1
  obtain ⟨q3, a3, p3⟩ := p2.exec2 hg.sizes hi (fun j h1 h2 => by simp [h1, h2])
  obtain ⟨r4, q4, b4, c4, p4⟩ := hands_ok hg .two _ hl (r2.set (S.key i) (some q3)) q3 _ (set_same _ _ _) p3
  obtain ⟨q5, a5, p5⟩ := p4.exec3 hg.sizes hi (fun j h1 h2 => by simp [h1, h2])
  obtain ⟨r6, b6⟩ := hands_any .three (key := S.key i) (view := view3) ((List.range S.n).filter (· ≠ i))
    (r4.set (S.key i) (some q5)) q5 (set_same _ _ _) (fun j hj => by rw [p5.lm]; exact hl j hj)
    (fun j hj => by obtain ⟨z, ms, pm, h⟩ := hv j (hl j hj); exact ⟨_, h, rfl⟩)
  obtain ⟨q6, c6, hlen, hm⟩ := hands_msgs b6 (p := q5) (set_same _ _ _) (fun j hj => by rw [p5.lm]; exact hl j hj)
  obtain ⟨q6', d6, k⟩ := runOps_same e (S.key i) _ (r4.set (S.key i) (some q5)) q5 (set_same _ _ _)
    (acc_after 4 (by omega) .three (S.key i) view3 ((List.range S.n).filter (· ≠ i)))
  rw [hands_runOps b6, c6] at d6
  cases d6
  refine ⟨r6, q6, ⟨_, _, r2, _, r4, _, create_ok hg r hi, ?_, b2, ?_, b4, ?_, b6⟩, c6, ?_, ?_, ?_, ?_, ?_⟩
  · simp only [KeygenRound1Exec, withParty_some _ (set_same _ _ _), a1]
  · simp only [KeygenRound2Exec, withParty_some _ c2, a3]
  · simp only [KeygenRound3Exec, withParty_some _ c4, a5]
  · rw [k.index]; exact p5.index
  · exact hlen.trans (p5.lm .three)
  · rw [k.ssid]; exact (p5.s1 (by omega)).1
  · rw [k.srid]; exact p5.srid2 (by omega)
  · intro j h1 h2
    have := hm j
    rw [if_pos (by simp [h1, h2])] at this
    refine ⟨this, ?_, ?_⟩
    · rw [k.pub]; exact (p5.s3 (by omega) j h1).1
    · rw [k.pay]; exact (p5.s3 (by omega) j h1).2 h2

/-- Two sessions that differ only in what party `m` draws (its nonce point and its contribution to the session randomness). -/
structure spec.Redrawn (S S' : Session) (m : Nat) : Prop where
  n : S'.n = S.n
  key : S'.key = S.key
  pIDs : S'.pIDs = S.pIDs
  root : S'.root = S.root
  rnd : ∀ j, j ≠ m → S'.rnd j = S.rnd j

/-- The challenge party `j` has to answer in a session: it depends on the contributions of all parties. -/
def spec.chal (e : Env) (L : Lawful e.c G) (S : Session) (j : Nat) : Int :=
  challenge e ssidConst (xorAll ((List.range S.n).map fun k => (S.rnd k).srid)) j (L.pt (S.x j • L.base)) (L.pt ((S.rnd j).tau • L.base))

/-- the honest answer satisfies the verification equation -/
theorem resp_smul {e : Env} {L : Lawful e.c G} (T : Session) (j : Nat) :
    resp e L T j • L.base = (T.rnd j).tau • L.base + spec.chal e L T j • (T.x j • L.base) := by
  have hx : e.c.N • (T.x j • L.base) = 0 := by rw [smul_comm, L.N_base, smul_zero]
  show Schnorr.Prove e.c.N (T.rnd j).tau (spec.chal e L T j) (T.x j) • L.base = _
  unfold Schnorr.Prove
  rw [Lawful.emod_smul L.N_base, add_smul, mul_smul]

/-- C81. Honest parties can be blamed. Party `m` misbehaves: it prepares two draws. There are two sets of messages `view` and
`viewB` that differ in rounds 1 and 2 only in the messages of `m`. Every honest party that is handed `viewB` gets Ok from
every call up to round 3 and sends its own messages of `viewB`. Party `i` is handed `view` in rounds 1 and 2, gets Ok from
every call, and accepts the round-3 messages that the other honest parties sent (and a valid one of `m`). Then, if the two
challenges of some honest `h` differ on its share, round 4 of `i` fails with an error that names an honest party. -/
theorem C81_framing {e : Env} {L : Lawful e.c G} {S S' : Session} {m : Nat} (hg : Good e L S) (hg' : Good e L S')
    (h : spec.Redrawn S S' m) (hm : m < S.n) {i h0 : Nat} (hi : i < S.n) (him : i ≠ m) (hh : h0 < S.n) (hhm : h0 ≠ m) (hhi : h0 ≠ i)
    (hch : spec.chal e L S h0 • (S.x h0 • L.base) ≠ spec.chal e L S' h0 • (S.x h0 • L.base)) :
    ∃ (view viewB : Round → Nat → Bytes) (view3 : Nat → Bytes),
      (∀ j, j ≠ m → viewB .one j = view .one j ∧ viewB .two j = view .two j) ∧
      (∀ j r, j < S.n → j ≠ m → ∃ r', spec.Client3 e S j viewB (viewB .three) r (viewB .three j) r') ∧
      (∀ j, j ≠ m → view3 j = viewB .three j) ∧
      ∀ r, ∃ w3 r' j, spec.Client3 e S i view view3 r w3 r' ∧ j < S.n ∧ j ≠ m ∧ j ≠ i ∧
        (KeygenRound4Exec e r' (S.key i)).1 = .err (.schnorr j) := by
  have hx : S'.x = S.x := by funext j; unfold Session.x; rw [h.root]
  have hX : ∀ j, shareX e L S' j = shareX e L S j := fun j => by unfold shareX; rw [hx]
  have hA : ∀ j, j ≠ m → shareA e L S' j = shareA e L S j := fun j hj => by unfold shareA; rw [h.rnd j hj]
  have h1 : ∀ j, j ≠ m → cont e L S' .one j = cont e L S .one j := fun j hj => by
    simp only [cont, comm, hX, hA j hj, h.rnd j hj]
  have h2 : ∀ j, j ≠ m → cont e L S' .two j = cont e L S .two j := fun j hj => by
    simp only [cont, hX, hA j hj, h.rnd j hj]
  let view3 : Nat → Bytes := fun j => if j = m then wireBytes (cont e L S .three j) else wireBytes (cont e L S' .three j)
  have hkg3 : ∀ (T : Session), Good e L T → ∀ j, j < T.n →
      parseWireMsg (wireBytes (cont e L T .three j)) = some (.kg3 (intBytes (resp e L T j)) [] []) := fun T hT j hj =>
    parse_cont hT.sizes .three j hj
  refine ⟨fun rd j => wireBytes (cont e L S rd j), fun rd j => wireBytes (cont e L S' rd j), view3,
    fun j hj => ⟨congrArg wireBytes (h1 j hj), congrArg wireBytes (h2 j hj)⟩, ?_, ?_, ?_⟩
  · intro j r hj hjm
    obtain ⟨r', -, a, -⟩ := client3_ok hg' r (i := j) (by rw [h.n]; exact hj) (fun k => wireBytes (cont e L S' .three k))
      (fun k hk => ⟨_, _, _, hkg3 S' hg' k hk⟩)
    refine ⟨r', ?_⟩
    unfold spec.Client3 at a ⊢
    rw [h.n, h.key, h.pIDs, h.root, h.rnd j hjm] at a
    exact a
  · intro j hj; exact if_neg hj
  · intro r
    have hv : ∀ j, j < S.n → ∃ z ms pm, parseWireMsg (view3 j) = some (.kg3 z ms pm) := by
      intro j hj
      by_cases hjm : j = m
      · exact ⟨_, _, _, by simp only [view3, if_pos hjm]; exact hkg3 S hg j hj⟩
      · exact ⟨_, _, _, by simp only [view3, if_neg hjm]; exact hkg3 S' hg' j (by rw [h.n]; exact hj)⟩
    obtain ⟨r', p, a, b1, b2, b3, b4, b5, b6⟩ := client3_ok hg r hi view3 hv
    refine ⟨wireBytes (cont e L S .three i), r', ?_⟩
    -- one step of the loop
    have hstep : ∀ (q : Party), q.index = i → q.m3 = p.m3 → q.save = p.save → q.payload = p.payload → q.ssid = p.ssid → q.srid = p.srid →
        ∀ j, j < S.n → j ≠ i → ∀ z ms pm, parseWireMsg (view3 j) = some (.kg3 z ms pm) → ∃ b, r4Step e q j =
          ((if b then .ok () else .err (.schnorr j)), q) ∧
          (b = true ↔ (beNat z : Int) • L.base = (S.rnd j).tau • L.base + spec.chal e L S j • (S.x j • L.base)) := by
      intro q q1 q2 q3 q4 q5 q6 j hj hji z ms pm hz
      obtain ⟨c1, c2, c3⟩ := b6 j hj hji
      obtain ⟨b, hb, hiff⟩ := Schnorr.C29_verify_exact L (beNat z) (challenge e ssidConst (common S) j (shareX e L S j) (shareA e L S j))
        (shareA e L S j) (shareX e L S j) (L.on_pt _) (L.on_pt _)
      refine ⟨b, ?_, ?_⟩
      · unfold r4Step
        rw [if_neg (by rw [q1]; exact hji), q2, c1, hz, q3, q4, c2, c3]
        simp only [q5, b4, q6, b5, hb]
        cases b <;> rfl
      · rw [hiff]
        simp only [shareA, shareX, L.val_pt]
        rw [Lawful.emod_smul (by rw [smul_comm, L.N_base, smul_zero])]
        rfl
    have hq : ∀ j ∈ List.range p.m3.length, r4Step e (resetOK { p with number := 4 }) j = (.ok (), resetOK { p with number := 4 }) ∨
        (r4Step e (resetOK { p with number := 4 }) j = (.err (.schnorr j), resetOK { p with number := 4 }) ∧ (j < S.n ∧ j ≠ m ∧ j ≠ i)) := by
      intro j hj
      rw [List.mem_range, b3] at hj
      by_cases hji : j = i
      · left; unfold r4Step; rw [if_pos (by rw [hji]; exact b2.symm)]
      obtain ⟨z, ms, pm, hz⟩ := hv j hj
      obtain ⟨b, c1, c2⟩ := hstep (resetOK { p with number := 4 }) b2 rfl rfl rfl rfl rfl j hj hji z ms pm hz
      by_cases hjm : j = m
      · left
        have hb : b = true := by
          rw [c2]
          have : parseWireMsg (view3 j) = some (.kg3 (intBytes (resp e L S j)) [] []) := by
            simp only [view3, if_pos hjm]; exact hkg3 S hg j hj
          rw [this] at hz
          cases hz
          rw [beNat_coord (resp_range j).1]
          exact resp_smul S j
        rw [c1, hb]; rfl
      · cases b with
        | true => left; rw [c1]; rfl
        | false => right; exact ⟨by rw [c1]; rfl, hj, hjm, hji⟩
    obtain ⟨j, -, hj, hf⟩ := forJ_first _ hq ⟨h0, by rw [List.mem_range, b3]; exact hh, by
      obtain ⟨z, ms, pm, hz⟩ := hv h0 hh
      obtain ⟨b, c1, c2⟩ := hstep (resetOK { p with number := 4 }) b2 rfl rfl rfl rfl rfl h0 hh hhi z ms pm hz
      intro hc
      rw [c1] at hc
      have hb : b = true := by
        cases b with
        | true => rfl
        | false => simp at hc
      rw [c2] at hb
      have : parseWireMsg (view3 h0) = some (.kg3 (intBytes (resp e L S' h0)) [] []) := by
        simp only [view3, if_neg hhm]; exact hkg3 S' hg' h0 (by rw [h.n]; exact hh)
      rw [this] at hz
      cases hz
      rw [beNat_coord (resp_range h0).1, resp_smul S' h0, h.rnd h0 hhm, hx] at hb
      exact hch (add_left_cancel hb).symm⟩
    refine ⟨j, a, hj.1, hj.2.1, hj.2.2, ?_⟩
    rw [KeygenRound4Exec, withParty_res b1]
    unfold r4Exec
    simp only
    rw [show (resetOK { p with number := 4 }).m3.length = p.m3.length from rfl, hf]

/-! ### a concrete case -/

/-- the toy session with another contribution of the last party to the session randomness -/
def exRedrawn : Session := { exSession with rnd := fun i => if i = 2 then { exSession.rnd 2 with srid := [1, 3] } else exSession.rnd i }

theorem exRedrawn_ok : spec.Redrawn exSession exRedrawn 2 where
  n := rfl
  key := rfl
  pIDs := rfl
  root := rfl
  rnd _ hj := if_neg hj

theorem exRedrawn_good : Good exEnv toyLawful exRedrawn where
  keys := exGood.keys
  ids := exGood.ids
  roots := exGood.roots
  sizes := ⟨exGood.sizes.coords, exGood.sizes.order, exGood.sizes.hash, fun i hi => by
    by_cases h : i = 2
    · subst h; decide
    · have := exGood.sizes.draws i hi
      simp only [exRedrawn, if_neg h]
      exact this⟩
  json := exGood.json

/-- party 0 of the toy session can be made to blame party 1 -/
example : ∃ (view viewB : Round → Nat → Bytes) (view3 : Nat → Bytes),
    (∀ j, j ≠ 2 → viewB .one j = view .one j ∧ viewB .two j = view .two j) ∧
    (∀ j r, j < 3 → j ≠ 2 → ∃ r', spec.Client3 exEnv exSession j viewB (viewB .three) r (viewB .three j) r') ∧
    (∀ j, j ≠ 2 → view3 j = viewB .three j) ∧
    ∀ r, ∃ w3 r', spec.Client3 exEnv exSession 0 view view3 r w3 r' ∧
      (KeygenRound4Exec exEnv r' [0]).1 = .err (.schnorr 1) := by
  obtain ⟨v, vB, v3, h1, h2, h3, h4⟩ := C81_framing (e := exEnv) (L := toyLawful) exGood exRedrawn_good exRedrawn_ok (i := 0) (h0 := 1)
    (by decide) (by decide) (by decide) (by decide) (by decide) (by decide) (by decide +kernel)
  refine ⟨v, vB, v3, h1, h2, h3, fun r => ?_⟩
  obtain ⟨w3, r', j, a, b, c, d, f⟩ := h4 r
  have : j = 1 := by have : j < 3 := b; omega
  subst this
  exact ⟨w3, r', a, f⟩

/-! ### the hypotheses of the two other theorems -/

/-- a client that got to round 4 has run three rounds, and they found the messages it handed over -/
theorem client3_three {e : Env} {S : Session} {i : Nat} {view : Round → Nat → Bytes} {view3 : Nat → Bytes} {r r' : Reg} {w3 : Bytes}
    (hr : Reach e r) (h : spec.Client3 e S i view view3 r w3 r') :
    ∃ M1 M2 p, spec.ThreeRounds e (S.key i) (view .one i) M1 (view .two i) M2 w3 r' ∧ r' (S.key i) = some p ∧ p.m3.length = S.n ∧
      ∀ j, j < S.n → j ≠ i → M1.getD j [] = view .one j ∧ M2.getD j [] = view .two j ∧ p.m3.getD j [] = view3 j := by
  obtain ⟨r0, r1, r2, r3, r4, r5, h0, h1, d1, h2, d2, h3, d3⟩ := h
  have hr0 : Reach e r0 := by
    have := Reach.step (Op.new (S.key i) i S.n S.pIDs (S.root i)) hr
    simp only [Op.run, h0] at this
    exact this
  have hr1 : Reach e r1 := by
    have := Reach.step (Op.exec1 (S.key i) (S.rnd i)) hr0
    simp only [Op.run, h1] at this
    exact this
  have hr2 : Reach e r2 := by rw [← hands_runOps (e := e) d1]; exact reach_runOps _ hr1
  have hr3 : Reach e r3 := by
    have := Reach.step (Op.exec2 (S.key i)) hr2
    simp only [Op.run, h2] at this
    exact this
  have hr4 : Reach e r4 := by rw [← hands_runOps (e := e) d2]; exact reach_runOps _ hr3
  have hr5 : Reach e r5 := by
    have := Reach.step (Op.exec3 (S.key i)) hr4
    simp only [Op.run, h3] at this
    exact this
  obtain ⟨q0, q1, b0, b1, b2⟩ := withParty_ok h1
  have i0 := reach_inv e hr0 _ q0 b0
  have i1 := reach_inv e hr1 _ q1 b2
  obtain ⟨q0', -, e1, -, -, -, -, -, -, e2, -⟩ := C13_new_party _ _ _ _ _ _ _ h0
  rw [b0] at e1; cases e1
  obtain ⟨-, -, -, -, -, -, e3, -⟩ := r1Exec_ok b1 (by rw [i0.lpub]; exact i0.idx)
  have hn : q1.ids.length = S.n := by rw [e3, ← i0.lm1, e2]; simp
  have hmem : ∀ j ∈ (List.range S.n).filter (· ≠ i), j < S.n := by
    intro j hj; simp only [List.mem_filter, List.mem_range] at hj; exact hj.1
  obtain ⟨q2, f1, -, f3⟩ := hands_msgs d1 b2 (by intro j hj; show j < q1.m1.length; rw [i1.lm1, hn]; exact hmem j hj)
  obtain ⟨q2', g0, g1⟩ := runOps_same e (S.key i) _ r1 q1 b2 (acc_after 4 (by omega) .one (S.key i) (view .one) ((List.range S.n).filter (· ≠ i)))
  rw [hands_runOps d1, f1] at g0; cases g0
  obtain ⟨q2', q3, c0, c1, c2⟩ := withParty_ok h2
  rw [f1] at c0; cases c0
  obtain ⟨-, -, -, -, -, -, c3, -⟩ := r2Exec_all c1
  have i3 := reach_inv e hr3 _ q3 c2
  have hn3 : q3.ids.length = S.n := by rw [c3, g1.ids, hn]
  obtain ⟨q4, l1, -, l3⟩ := hands_msgs d2 c2 (by intro j hj; show j < q3.m2.length; rw [i3.lm2, hn3]; exact hmem j hj)
  obtain ⟨q4', m0, m1⟩ := runOps_same e (S.key i) _ r3 q3 c2 (acc_after 4 (by omega) .two (S.key i) (view .two) ((List.range S.n).filter (· ≠ i)))
  rw [hands_runOps d2, l1] at m0; cases m0
  obtain ⟨q4', q5, n0, n1, n2⟩ := withParty_ok h3
  rw [l1] at n0; cases n0
  have k5 : Keeps 2 q4 q5 := by have := r3Exec_keeps e q4; rwa [n1] at this
  have i5 := reach_inv e hr5 _ q5 n2
  have hn5 : q5.ids.length = S.n := by rw [k5.ids, m1.ids, hn3]
  obtain ⟨q6, o1, o2, o3⟩ := hands_msgs d3 n2 (by intro j hj; show j < q5.m3.length; rw [i5.lm3, hn5]; exact hmem j hj)
  refine ⟨q2.m1, q4.m2, q6, ⟨r4, r5, _, q4, ⟨S.rnd i, r0, r1, r3, _, _, q2, hr0, h1,
    acc_after 4 (by omega) .one (S.key i) (view .one) ((List.range S.n).filter (· ≠ i)), ?_, rfl, ?_,
    acc_after 4 (by omega) .two (S.key i) (view .two) ((List.range S.n).filter (· ≠ i)), hands_runOps d2⟩, l1, rfl, h3,
    acc_after 4 (by omega) .three (S.key i) view3 ((List.range S.n).filter (· ≠ i)), hands_runOps d3⟩, o1, ?_, ?_⟩
  · rw [hands_runOps d1]; exact f1
  · rw [hands_runOps d1]; exact h2
  · show q6.m3.length = _; exact (show q6.m3.length = q5.m3.length from o2).trans (by rw [i5.lm3, hn5])
  · intro j u1 u2
    have hj : j ∈ (List.range S.n).filter (· ≠ i) := by simp [u1, u2]
    have v1 := f3 j
    have v2 := l3 j
    have v3 := o3 j
    rw [if_pos hj] at v1 v2 v3
    exact ⟨v1, v2, v3⟩

/-- parties 0 and 1 of the toy session have each run three rounds with the same messages of party 2 -/
example : ∃ (w1 w2 w3 v1 v2 v3 : Bytes) (M1 M2 N1 N2 : List Bytes) (r r' : Reg) (p q : Party),
    spec.ThreeRounds exEnv [0] w1 M1 w2 M2 w3 r ∧ r [0] = some p ∧ spec.ThreeRounds exEnv [1] v1 N1 v2 N2 v3 r' ∧ r' [1] = some q ∧
    p.index = 0 ∧ q.index = 1 ∧ p.ids.length = q.ids.length ∧ M1.getD 1 [] = v1 ∧ M2.getD 1 [] = v2 ∧ N2.getD 0 [] = w2 ∧
    M2.getD 2 [] = N2.getD 2 [] ∧ p.m3.getD 1 [] = v3 ∧ w2.length < 2 ^ 64 ∧ v2.length < 2 ^ 64 ∧ v3.length < 2 ^ 64 := by
  have hv : ∀ j, j < exSession.n → ∃ z ms pm, parseWireMsg (wireBytes (cont exEnv toyLawful exSession .three j)) = some (.kg3 z ms pm) :=
    fun j hj => ⟨_, _, _, parse_cont exGood.sizes .three j hj⟩
  obtain ⟨r, p, a1, a2, a3, a4, -⟩ := client3_ok (e := exEnv) exGood (fun _ => none) (i := 0) (by decide) _ hv
  obtain ⟨r', q, b1, b2, b3, b4, -⟩ := client3_ok (e := exEnv) exGood (fun _ => none) (i := 1) (by decide) _ hv
  obtain ⟨M1, M2, p', c1, c2, c3, c4⟩ := client3_three .init a1
  obtain ⟨N1, N2, q', d1, d2, d3, d4⟩ := client3_three .init b1
  rw [a2] at c2; cases c2
  rw [b2] at d2; cases d2
  have ip := reach_inv exEnv (threeRounds c1).1 _ p a2
  have iq := reach_inv exEnv (threeRounds d1).1 _ q b2
  refine ⟨_, _, _, _, _, _, M1, M2, N1, N2, r, r', p, q, c1, a2, d1, b2, a3, b3, by rw [← ip.lm3, ← iq.lm3, a4, b4],
    (c4 1 (by decide) (by decide)).1, (c4 1 (by decide) (by decide)).2.1, (d4 0 (by decide) (by decide)).2.1,
    (c4 2 (by decide) (by decide)).2.1.trans (d4 2 (by decide) (by decide)).2.1.symm, (c4 1 (by decide) (by decide)).2.2,
    by decide +kernel, by decide +kernel, by decide +kernel⟩

end Tss.Keygen
