import Verif.Props.Broadcast
/-! C80: why the agreement theorem needs equal round-1 messages. A peer that commits to one share towards some parties and
to another share towards the others makes them finish with different group keys, and nothing they send differs. -/
namespace Tss.Keygen
open Tss Text Wire

/-- Hand the messages `view j`, for `j` in `l`, to the accept call of a round; every call returns Ok. -/
inductive spec.Hands (rd : Round) (key : Bytes) (view : Nat → Bytes) : List Nat → Reg → Reg → Prop where
  | nil (r : Reg) : spec.Hands rd key view [] r r
  | cons {j : Nat} {l : List Nat} {r r1 r2 : Reg} (h : rd.accept r key (j : Int) (b64Encode (view j)) = (.ok (), r1))
      (t : spec.Hands rd key view l r1 r2) : spec.Hands rd key view (j :: l) r r2

/-- A client of party `i` follows the protocol: it creates the party, runs the four rounds, hands it between two rounds the
messages `view` of all other parties. Every call returns Ok; what the calls of rounds 1 to 3 return is `view .one i`,
`view .two i`, `view .three i`; at the end the party is `p`. -/
def spec.Client (e : Env) (S : Session) (i : Nat) (view : Round → Nat → Bytes) (r : Reg) (p : Party) : Prop :=
  ∃ (r0 r1 r2 r3 r4 r5 r6 r7 : Reg) (out : Bytes),
    NewLocalParty r (S.key i) i S.n S.pIDs (S.root i) = (.ok (), r0) ∧
    KeygenRound1Exec e (S.rnd i) r0 (S.key i) = (.ok (view .one i), r1) ∧
    spec.Hands .one (S.key i) (view .one) ((List.range S.n).filter (· ≠ i)) r1 r2 ∧
    KeygenRound2Exec r2 (S.key i) = (.ok (view .two i), r3) ∧
    spec.Hands .two (S.key i) (view .two) ((List.range S.n).filter (· ≠ i)) r3 r4 ∧
    KeygenRound3Exec e r4 (S.key i) = (.ok (view .three i), r5) ∧
    spec.Hands .three (S.key i) (view .three) ((List.range S.n).filter (· ≠ i)) r5 r6 ∧
    KeygenRound4Exec e r6 (S.key i) = (.ok out, r7) ∧ r7 (S.key i) = some p

variable {G : Type} [AddCommGroup G]

/-- creating a party of a good session -/
theorem create_ok {e : Env} {L : Lawful e.c G} {S : Session} (hg : Good e L S) (r : Reg) {i : Nat} (hi : i < S.n) :
    NewLocalParty r (S.key i) i S.n S.pIDs (S.root i) = (.ok (), r.set (S.key i) (some (freshParty S.n i (sortedIds S) (S.x i)))) := by
  have hok := (C13_success_iff r (S.key i) i S.n S.pIDs (S.root i)).mpr ⟨hg.ids, ⟨by omega, by omega⟩, hg.roots i hi⟩
  obtain ⟨b, hb⟩ := hg.roots i hi
  obtain ⟨uIds, hu⟩ : ∃ u, buildIds S.pIDs 0 S.n = some u := by
    have := (idsOk_iff S.n S.pIDs (by omega)).mp hg.ids
    simpa using Option.isSome_iff_exists.mp this
  have hso : sortedIds S = PartyID.SortPartyIDs uIds none := by unfold sortedIds; rw [hu]; rfl
  rw [hso]
  unfold NewLocalParty at hok ⊢
  have c1 : ¬ ((S.n : Int) < 0) := by omega
  simp only [c1, if_false, Int.toNat_natCast, hu] at hok ⊢
  split at hok
  · next hc =>
    simp only [hc, and_self, if_true, hb]
    simp [Session.x, hb]
  · cases hok

/-- handing over honest messages -/
theorem hands_ok {e : Env} {L : Lawful e.c G} {S : Session} (hg : Good e L S) (rd : Round) {i k : Nat} :
    ∀ (l : List Nat), (∀ j ∈ l, j < S.n) → ∀ (r : Reg) (p : Party) (got : Round → Nat → Bool), r (S.key i) = some p →
    PI e L S i k got p →
    ∃ r' p', spec.Hands rd (S.key i) (fun j => wireBytes (cont e L S rd j)) l r r' ∧ r' (S.key i) = some p' ∧
      PI e L S i k (fun rd' j' => (decide (rd' = rd) && decide (j' ∈ l)) || got rd' j') p'
  | [], _, r, p, got, hr, hp => ⟨r, p, .nil r, hr, hp.got_congr fun rd' j' => by simp⟩
  | j :: l, hl, r, p, got, hr, hp => by
    have hj : j < S.n := hl j (by simp)
    have hdec : b64Decode (b64Encode (wireBytes (cont e L S rd j))) = some (wireBytes (cont e L S rd j)) := b64_round_trip _
    obtain ⟨a1, a2, -, -⟩ := C15_accept_effect rd r (S.key i) p hr j _ _ hdec ⟨by omega, by rw [hp.lm]; omega⟩
    have hok : (rd.accept r (S.key i) (j : Int) (b64Encode (wireBytes (cont e L S rd j)))).1 = .ok () :=
      a2.mpr ⟨_, parse_cont hg.sizes rd j hj, by cases rd <;> rfl⟩
    rw [Int.toNat_natCast] at a1
    obtain ⟨r', p', b1, b2, b3⟩ := hands_ok hg rd l (fun j' h' => hl j' (by simp [h']))
      (rd.accept r (S.key i) (j : Int) (b64Encode (wireBytes (cont e L S rd j)))).2 _
      (fun rd' j' => (decide (rd' = rd) && decide (j' = j)) || got rd' j') (by rw [a1]; exact set_same _ _ _)
      (hp.store rd (j := j) (fun rd' j' hh => by
        simp only [Bool.or_eq_true, Bool.and_eq_true, decide_eq_true_eq] at hh
        exact hh.symm) hj)
    refine ⟨r', p', .cons (Prod.ext hok rfl) b1, b2, b3.got_congr fun rd' j' => ?_⟩
    by_cases h1 : rd' = rd <;> by_cases h2 : j' = j <;> by_cases h3 : j' ∈ l <;> simp [h1, h2, h3]

/-- A client that is handed the messages of a good session finishes, with the key of that session. -/
theorem client_ok {e : Env} {L : Lawful e.c G} {S : Session} (hg : Good e L S) (r : Reg) {i : Nat} (hi : i < S.n) :
    ∃ p, spec.Client e S i (fun rd j => wireBytes (cont e L S rd j)) r p ∧ p.index = i ∧ p.ids = sortedIds S ∧
      p.save.eddsaPub = some (jointPub e L S) ∧ p.save.privXi = some (S.x i) ∧
      p.save.pubXj = ((List.range S.n).map fun j => some (shareX e L S j)) := by
  have hl : ∀ j ∈ (List.range S.n).filter (· ≠ i), j < S.n := by
    intro j hj; simp only [List.mem_filter, List.mem_range] at hj; exact hj.1
  have hm : ∀ j, j < S.n → j ≠ i → j ∈ (List.range S.n).filter (· ≠ i) := by
    intro j h1 h2; simp [h1, h2]
  have p0 := PI.fresh (e := e) (L := L) (S := S) i (fun _ _ => false) (fun _ _ => rfl)
  obtain ⟨q1, a1, p1⟩ := p0.exec1 hi
  obtain ⟨r2, q2, b2, c2, p2⟩ := hands_ok hg .one _ hl
    ((r.set (S.key i) (some (freshParty S.n i (sortedIds S) (S.x i)))).set (S.key i) (some q1)) q1 _ (set_same _ _ _) p1
  obtain ⟨q3, a3, p3⟩ := p2.exec2 hg.sizes hi (fun j h1 h2 => by simp [h1, h2])
  obtain ⟨r4, q4, b4, c4, p4⟩ := hands_ok hg .two _ hl (r2.set (S.key i) (some q3)) q3 _ (set_same _ _ _) p3
  obtain ⟨q5, a5, p5⟩ := p4.exec3 hg.sizes hi (fun j h1 h2 => by simp [h1, h2])
  obtain ⟨r6, q6, b6, c6, p6⟩ := hands_ok hg .three _ hl (r4.set (S.key i) (some q5)) q5 _ (set_same _ _ _) p5
  obtain ⟨q7, out, a7, d7, e7, p7⟩ := p6.exec4 hg.sizes hi (fun j h1 h2 => by simp [h1, h2]) hg.json
  refine ⟨q7, ⟨_, _, r2, _, r4, _, r6, r6.set (S.key i) (some q7), out, create_ok hg r hi, ?_, b2, ?_, b4, ?_, b6, ?_, set_same _ _ _⟩, p7.index, p7.idk.1,
    p7.s4 (by omega), p7.priv, pubXj_eq p7 (by omega)⟩
  · simp only [KeygenRound1Exec, withParty_some _ (set_same _ _ _), a1]
  · simp only [KeygenRound2Exec, withParty_some _ c2, a3]
  · simp only [KeygenRound3Exec, withParty_some _ c4, a5]
  · simp only [KeygenRound4Exec, withParty_some _ c6, a7]

/-- Two sessions that differ only in the root key of party `m`. -/
structure spec.Forked (S S' : Session) (m : Nat) : Prop where
  n : S'.n = S.n
  key : S'.key = S.key
  pIDs : S'.pIDs = S.pIDs
  root : ∀ j, j ≠ m → S'.root j = S.root j
  rnd : S'.rnd = S.rnd

theorem cont_forked {e : Env} {L : Lawful e.c G} {S S' : Session} {m : Nat} (h : spec.Forked S S' m) (rd : Round) {j : Nat}
    (hj : j ≠ m) : cont e L S' rd j = cont e L S rd j := by
  have hx : S'.x j = S.x j := by unfold Session.x; rw [h.root j hj]
  have hX : shareX e L S' j = shareX e L S j := by unfold shareX; rw [hx]
  have hA : shareA e L S' j = shareA e L S j := by unfold shareA; rw [h.rnd]
  have hc : common S' = common S := by unfold common; rw [h.n, h.rnd]
  have hch : chal e L S' j = chal e L S j := by unfold chal; rw [hc, hX, hA]
  cases rd
  · simp only [cont, comm, hX, hA, h.rnd]
  · simp only [cont, hX, hA, h.rnd]
  · simp only [cont, resp, hch, hx, h.rnd]

/-- C80. Without the hypothesis of `C80_agreement` on round 1 there is no agreement. Party `m` misbehaves: it prepares two
root keys. Then there are two sets of messages `view` and `viewB` that differ only in the messages of `m`, such that every
other party – whichever of the two it is handed, and in any process – gets Ok from every call and sends the same messages,
but finishes with the key of one or of the other session; and these keys differ whenever the two shares of `m` do. -/
theorem C80_equivocation {e : Env} {L : Lawful e.c G} {S S' : Session} {m : Nat} (hg : Good e L S) (hg' : Good e L S')
    (h : spec.Forked S S' m) (hm : m < S.n) :
    ∃ view viewB : Round → Nat → Bytes, (∀ rd j, j ≠ m → viewB rd j = view rd j) ∧
      (∀ i r, i < S.n → i ≠ m →
        (∃ p, spec.Client e S i view r p ∧ p.save.eddsaPub = some (L.pt (((List.range S.n).map S.x).sum • L.base))) ∧
        (∃ p, spec.Client e S i viewB r p ∧ p.save.eddsaPub = some (L.pt (((List.range S.n).map S'.x).sum • L.base)))) ∧
      (S.x m • L.base ≠ S'.x m • L.base →
        L.pt (((List.range S.n).map S.x).sum • L.base) ≠ L.pt (((List.range S.n).map S'.x).sum • L.base)) := by
  refine ⟨fun rd j => wireBytes (cont e L S rd j), fun rd j => wireBytes (cont e L S' rd j),
    fun rd j hj => congrArg wireBytes (cont_forked h rd hj), fun i r hi him => ⟨?_, ?_⟩, ?_⟩
  · obtain ⟨p, a, -, -, b, -⟩ := client_ok hg r hi
    exact ⟨p, a, b⟩
  · obtain ⟨p, a, -, -, b, -⟩ := client_ok hg' r (i := i) (by rw [h.n]; exact hi)
    refine ⟨p, ?_, by rw [b]; unfold jointPub; rw [h.n]⟩
    unfold spec.Client at a ⊢
    rw [h.n, h.key, h.pIDs, h.root i him, h.rnd] at a
    exact a
  · intro hne heq
    rw [L.pt_inj] at heq
    apply hne
    have key : ∀ T : Session, ((List.range S.n).map T.x).sum = T.x m + (((List.range S.n).erase m).map T.x).sum := by
      intro T
      have := (List.perm_cons_erase (List.mem_range.mpr hm)).map T.x
      rw [this.sum_eq, List.map_cons, List.sum_cons]
    have hrest : ((List.range S.n).erase m).map S'.x = ((List.range S.n).erase m).map S.x := by
      apply List.map_congr_left
      intro j hj
      have hjm : j ≠ m := ((List.Nodup.mem_erase_iff List.nodup_range).mp hj).1
      unfold Session.x
      rw [h.root j hjm]
    rw [key S, key S', hrest, add_smul, add_smul] at heq
    exact add_right_cancel heq

/-! ### a concrete case -/

/-- the same session with another root key of the last party -/
def exForked : Session := { exSession with root := fun i => if i = 2 then ascii "01" else exSession.root i }

theorem exForked_ok : spec.Forked exSession exForked 2 where
  n := rfl
  key := rfl
  pIDs := rfl
  root _ hj := if_neg hj
  rnd := rfl

theorem exForked_good : Good exEnv toyLawful exForked where
  keys := exGood.keys
  ids := exGood.ids
  roots i hi := by
    by_cases h : i = 2
    · subst h; exact ⟨[1], by decide⟩
    · obtain ⟨b, hb⟩ := exGood.roots i hi
      exact ⟨b, by rw [← hb]; show hexDecode (if i = 2 then _ else _) = _; rw [if_neg h]⟩
  sizes := ⟨exGood.sizes.coords, exGood.sizes.order, exGood.sizes.hash, exGood.sizes.draws⟩
  json := exGood.json

/-- parties 0 and 1 of the toy session can be made to finish with keys 6·G and 7·G -/
example : ∃ view viewB : Round → Nat → Bytes, (∀ rd j, j ≠ 2 → viewB rd j = view rd j) ∧ ∃ p q,
    spec.Client exEnv exSession 0 view (fun _ => none) p ∧ p.save.eddsaPub = some ⟨6, 0⟩ ∧
    spec.Client exEnv exSession 1 viewB (fun _ => none) q ∧ q.save.eddsaPub = some ⟨7, 0⟩ := by
  obtain ⟨v, vB, h1, h2, -⟩ := C80_equivocation exGood exForked_good exForked_ok (by decide)
  obtain ⟨⟨p, a, b⟩, -⟩ := h2 0 (fun _ => none) (by decide) (by decide)
  obtain ⟨-, ⟨q, c, d⟩⟩ := h2 1 (fun _ => none) (by decide) (by decide)
  refine ⟨v, vB, h1, p, q, a, ?_, c, ?_⟩
  · rw [b]; decide +kernel
  · rw [d]; decide +kernel

/-! ### the hypotheses of the two other theorems -/

theorem hands_runOps {e : Env} {rd : Round} {key : Bytes} {view : Nat → Bytes} {l : List Nat} {r r' : Reg}
    (h : spec.Hands rd key view l r r') : runOps e (l.map fun (j : Nat) => Op.acc rd key j (b64Encode (view j))) r = r' := by
  induction h with
  | nil r => rfl
  | @cons j l r r1 r2 h t ih =>
    simp only [List.map_cons, runOps, Op.run]
    rw [h]
    exact ih

theorem acc_after (k : Nat) (hk : k < 5) (rd : Round) (key : Bytes) (view : Nat → Bytes) (l : List Nat) :
    spec.After k key (l.map fun (j : Nat) => Op.acc rd key j (b64Encode (view j))) := by
  intro op ho _
  obtain ⟨j, -, rfl⟩ := List.mem_map.mp ho
  exact hk

/-- what is handed over is stored -/
theorem hands_msgs {rd : Round} {key : Bytes} {view : Nat → Bytes} {l : List Nat} {r r' : Reg} (h : spec.Hands rd key view l r r') :
    ∀ {p : Party}, r key = some p → (∀ j ∈ l, j < (rd.msgs p).length) →
    ∃ p', r' key = some p' ∧ (rd.msgs p').length = (rd.msgs p).length ∧ ∀ j, (rd.msgs p').getD j [] = if j ∈ l then view j else (rd.msgs p).getD j [] := by
  induction h with
  | nil r => intro p hp _; exact ⟨p, hp, rfl, fun j => by simp⟩
  | @cons j l r r1 r2 h t ih =>
    intro p hp hl
    obtain ⟨a1, -, -, -⟩ := C15_accept_effect rd r key p hp j _ _ (b64_round_trip (view j))
      ⟨by omega, by have := hl j (by simp); omega⟩
    rw [h, Int.toNat_natCast] at a1
    obtain ⟨p', b1, b3, b2⟩ := ih (p := rd.put p ((rd.msgs p).set j (view j)))
      (by rw [show r1 = _ from a1]; exact set_same _ _ _)
      (by intro j' h'; rw [put_msgs, if_pos rfl, List.length_set]; exact hl j' (by simp [h']))
    refine ⟨p', b1, by rw [b3, put_msgs, if_pos rfl, List.length_set], fun j' => ?_⟩
    rw [b2 j', put_msgs, if_pos rfl, getD_set]
    have hjl := hl j (by simp)
    by_cases h1 : j' ∈ l
    · simp [h1]
    · by_cases h2 : j' = j
      · subst h2; simp [h1, hjl]
      · rw [if_neg h1, if_neg (by rintro ⟨c, -⟩; exact h2 c.symm), if_neg (by simp [h1, h2])]

/-- a client that finishes has run its four rounds, and round 2 found the messages it handed over -/
theorem client_ran {e : Env} {S : Session} {i : Nat} {view : Round → Nat → Bytes} {r : Reg} {p : Party} (hr : Reach e r)
    (h : spec.Client e S i view r p) :
    ∃ M M2, spec.Ran e (S.key i) (view .one i) (S.rnd i) M M2 p ∧ ∀ j, j < S.n → j ≠ i → M.getD j [] = view .one j := by
  obtain ⟨r0, r1, r2, r3, r4, r5, r6, r7, out, h0, h1, d1, h2, d2, h3, d3, h4, hp⟩ := h
  obtain ⟨q, -, hq, -, -⟩ := withParty_ok h2
  obtain ⟨qm, -, hqm, -, -⟩ := withParty_ok h3
  have hr0 : Reach e r0 := by
    have := Reach.step (Op.new (S.key i) i S.n S.pIDs (S.root i)) hr
    simp only [Op.run, h0] at this
    exact this
  have hr1 : Reach e r1 := by
    have := Reach.step (Op.exec1 (S.key i) (S.rnd i)) hr0
    simp only [Op.run, h1] at this
    exact this
  refine ⟨q.m1, qm.m2, ⟨r0, r1, r3, _, view .two i, q, hr0, h1,
    acc_after 1 (by omega) .one (S.key i) (view .one) ((List.range S.n).filter (· ≠ i)), ?_, rfl, ?_,
    _, _, view .three i, out, r5, r7, qm, acc_after 2 (by omega) .two (S.key i) (view .two) ((List.range S.n).filter (· ≠ i)), ?_, rfl, ?_,
    acc_after 3 (by omega) .three (S.key i) (view .three) ((List.range S.n).filter (· ≠ i)), ?_, hp⟩, ?_⟩
  · rw [hands_runOps d1]; exact hq
  · rw [hands_runOps d1]; exact h2
  · rw [hands_runOps d2]; exact hqm
  · rw [hands_runOps d2]; exact h3
  · rw [hands_runOps d3]; exact h4
  · obtain ⟨q0, q1, b0, b1, b2⟩ := withParty_ok h1
    have i0 := reach_inv e hr0 _ q0 b0
    have i1 := reach_inv e hr1 _ q1 b2
    obtain ⟨q0', -, e1, -, -, -, -, -, -, e2, -⟩ := C13_new_party _ _ _ _ _ _ _ h0
    rw [b0] at e1; cases e1
    obtain ⟨-, -, -, -, -, -, e3, -⟩ := r1Exec_ok b1 (by rw [i0.lpub]; exact i0.idx)
    have hlen : q1.m1.length = S.n := by
      rw [i1.lm1, e3, ← i0.lm1, e2]; simp
    obtain ⟨q', c1, -, c2⟩ := hands_msgs d1 b2 (by
      intro j hj
      simp only [List.mem_filter, List.mem_range] at hj
      show j < q1.m1.length
      rw [hlen]; exact hj.1)
    rw [hq] at c1; cases c1
    intro j h5 h6
    have := c2 j
    rw [if_pos (by simp [h5, h6])] at this
    exact this

/-- parties 0 and 1 of the toy session have each run their rounds with the other's round-1 message and the same one of
party 2 -/
example : ∃ wa wb ra rb Ma Mb Na Nb p q, spec.Ran exEnv [0] wa ra Ma Na p ∧ spec.Ran exEnv [1] wb rb Mb Nb q ∧ p.ids.length = q.ids.length ∧
    p.index ≠ q.index ∧ Mb.getD p.index [] = wa ∧ Ma.getD q.index [] = wb ∧ wa.length < 2 ^ 64 ∧ wb.length < 2 ^ 64 ∧
    (∀ j, j < p.ids.length → j ≠ p.index → j ≠ q.index → Ma.getD j [] = Mb.getD j []) := by
  obtain ⟨p, a1, a2, a3, -⟩ := client_ok exGood (fun _ => none) (i := 0) (by decide)
  obtain ⟨q, b1, b2, b3, -⟩ := client_ok exGood (fun _ => none) (i := 1) (by decide)
  obtain ⟨Ma, Na, c1, c2⟩ := client_ran .init a1
  obtain ⟨Mb, Nb, d1, d2⟩ := client_ran .init b1
  refine ⟨_, _, _, _, Ma, Mb, Na, Nb, p, q, c1, d1, by rw [a3, b3], by rw [a2, b2]; decide, ?_, ?_, by decide +kernel, by decide +kernel, ?_⟩
  · rw [a2]; exact d2 0 (by decide) (by decide)
  · rw [b2]; exact c2 1 (by decide) (by decide)
  · intro j hj h1 h2
    rw [a2] at h1
    rw [b2] at h2
    have hj' : j < exSession.n := by
      rw [a3] at hj
      exact hj
    rw [c2 j hj' h1, d2 j hj' h2]

/-- party 0 of the toy session can be completed after its round 2 -/
example : ∃ r0 w r2 M p, Reach exEnv r0 ∧ KeygenRound2Exec r0 [0] = (.ok w, r2) ∧ spec.Completes exEnv [0] r2 M p := by
  obtain ⟨p, a1, -⟩ := client_ok exGood (fun _ => none) (i := 0) (by decide)
  obtain ⟨M, M2, ⟨r0, r1, r2, ops1, w2, q, hr, h1, -, -, -, h2, hc⟩, -⟩ := client_ran .init a1
  have hr1 : Reach exEnv r1 := by
    have := Reach.step (Op.exec1 [0] (exSession.rnd 0)) hr
    simp only [Op.run, show KeygenRound1Exec exEnv (exSession.rnd 0) r0 [0] = _ from h1] at this
    exact this
  exact ⟨_, w2, r2, M2, p, reach_runOps ops1 hr1, h2, hc⟩

end Tss.Keygen
