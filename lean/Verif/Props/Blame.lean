import Verif.Props.Equivocation
/-! C81: whom key generation blames. -/
namespace Tss.Keygen
open Tss Text Wire

/-! ### an honest client -/

/-- The client of the party under `key` has run rounds 1 and 2 once each: round 1 returned `w1`, round 2 found the round-1
messages `M1` and returned `w2`; between the rounds, and until registry `r` was reached, any calls were made except that this
party was not created, removed or sent into a round. -/
def spec.TwoRounds (e : Env) (key w1 : Bytes) (M1 : List Bytes) (w2 : Bytes) (r : Reg) : Prop :=
  ∃ (rnd : Rand1) (r0 r1 r2 : Reg) (ops1 ops2 : List Op) (q : Party), Reach e r0 ∧
    KeygenRound1Exec e rnd r0 key = (.ok w1, r1) ∧ spec.After 4 key ops1 ∧ runOps e ops1 r1 key = some q ∧ q.m1 = M1 ∧
    KeygenRound2Exec (runOps e ops1 r1) key = (.ok w2, r2) ∧ spec.After 4 key ops2 ∧ runOps e ops2 r2 = r

/-- Then it has run round 3 once, which found the round-2 messages `M2` and returned `w3`. -/
def spec.ThreeRounds (e : Env) (key w1 : Bytes) (M1 : List Bytes) (w2 : Bytes) (M2 : List Bytes) (w3 : Bytes) (r : Reg) : Prop :=
  ∃ (r2 r3 : Reg) (ops3 : List Op) (q : Party), spec.TwoRounds e key w1 M1 w2 r2 ∧ r2 key = some q ∧ q.m2 = M2 ∧
    KeygenRound3Exec e r2 key = (.ok w3, r3) ∧ spec.After 4 key ops3 ∧ runOps e ops3 r3 = r

/-! ### what calls that are no rounds leave alone -/

/-- everything the rounds compute with, except the stored messages -/
structure Same (p q : Party) : Prop where
  index : q.index = p.index
  ids : q.ids = p.ids
  ssid : q.ssid = p.ssid
  srid : q.srid = p.srid
  u : q.u = p.u
  tau : q.tau = p.tau
  A : q.commitedA = p.commitedA
  V : q.V = p.V
  pay : q.payload = p.payload
  pub : q.save.pubXj = p.save.pubXj
  priv : q.save.privXi = p.save.privXi

theorem Same.refl' {p : Party} : Same p p := ⟨rfl, rfl, rfl, rfl, rfl, rfl, rfl, rfl, rfl, rfl, rfl⟩

theorem Same.trans {p q s : Party} (h : Same p q) (g : Same q s) : Same p s :=
  ⟨g.index.trans h.index, g.ids.trans h.ids, g.ssid.trans h.ssid, g.srid.trans h.srid, g.u.trans h.u, g.tau.trans h.tau,
    g.A.trans h.A, g.V.trans h.V, g.pay.trans h.pay, g.pub.trans h.pub, g.priv.trans h.priv⟩

theorem with_same {α : Type} (r : Reg) (key : Bytes) (f : Party → Res Err α × Party) (p : Party) (h : r key = some p)
    (hf : Same p (f p).2) : ∃ q, (withParty r key f).2 key = some q ∧ Same p q := by
  simp only [withParty, h, Reg.set, if_pos]
  exact ⟨_, rfl, hf⟩

theorem run_same (e : Env) (op : Op) (r : Reg) (key : Bytes) (p : Party) (h : r key = some p)
    (hk : op.key = key → 4 < spec.round op) : ∃ q, (op.run e r).2 key = some q ∧ Same p q := by
  by_cases hop : op.key = key
  · specialize hk hop
    cases op with
    | new _ i n ids root => simp [spec.round] at hk
    | remove _ => simp [spec.round] at hk
    | exec1 _ rnd => simp [spec.round] at hk
    | exec2 _ => simp [spec.round] at hk
    | exec3 _ => simp [spec.round] at hk
    | exec4 _ => simp [spec.round] at hk
    | acc rd _ f m =>
      cases hop
      cases rd <;> (
        simp only [Op.run, Op.key, Round.accept, KeygenRound1Accept, KeygenRound2Accept, KeygenRound3Accept]
        refine with_same r _ _ p h ?_
        unfold accept
        split
        · exact .refl'
        · simp only
          split
          · split
            · exact ⟨rfl, rfl, rfl, rfl, rfl, rfl, rfl, rfl, rfl, rfl, rfl⟩
            · split <;> exact ⟨rfl, rfl, rfl, rfl, rfl, rfl, rfl, rfl, rfl, rfl, rfl⟩
          · exact .refl')
    | fin rd _ => cases hop; cases rd <;> exact with_same r _ _ p h .refl'
    | saveChain _ c =>
      cases hop
      refine with_same r _ _ p h ?_
      simp only
      split
      · exact .refl'
      · split
        · exact ⟨rfl, rfl, rfl, rfl, rfl, rfl, rfl, rfl, rfl, rfl, rfl⟩
        · exact .refl'
        · exact .refl'
  · exact ⟨p, (run_elsewhere e op r key hop).trans h, .refl'⟩

theorem runOps_same (e : Env) (key : Bytes) : ∀ (ops : List Op) (r : Reg) (p : Party), r key = some p →
    spec.After 4 key ops → ∃ q, runOps e ops r key = some q ∧ Same p q
  | [], _, p, h, _ => ⟨p, h, .refl'⟩
  | op :: t, r, p, h, ha => by
    obtain ⟨q, h1, h2⟩ := run_same e op r key p h (ha op (by simp))
    obtain ⟨s, h3, h4⟩ := runOps_same e key t _ q h1 fun o ho => ha o (by simp [ho])
    exact ⟨s, h3, h2.trans h4⟩

/-! ### what an honest client holds -/

/-- round 1 -/
theorem r1Exec_all {e : Env} {rnd : Rand1} {p p' : Party} {w : Bytes} (h : r1Exec e rnd p = (.ok w, p'))
    (hi : p.index < p.save.pubXj.length) : ∃ x X A, ECPoint.scalarBaseMult e.c x = some X ∧
      ECPoint.scalarBaseMult e.c rnd.tau = some A ∧ p'.index = p.index ∧ p'.ids = p.ids ∧ p'.ssid = ssidConst ∧
      p'.srid = rnd.srid ∧ p'.u = rnd.u ∧ p'.tau = some rnd.tau ∧ p'.commitedA = some A ∧ p'.save.privXi = some x ∧
      p'.save.pubXj.getD p.index none = some X ∧ w = wireBytes (.kg1 (commitHash e.H ssidConst p.index rnd.srid X A rnd.u)) := by
  unfold r1Exec at h
  simp only [resetOK] at h
  cases hX : ECPoint.scalarBaseMult e.c (p.save.privXi.getD rnd.priv) with
  | none => rw [hX] at h; simp at h
  | some X =>
    cases hA : ECPoint.scalarBaseMult e.c rnd.tau with
    | none => rw [hX, hA] at h; simp at h
    | some A =>
      rw [hX, hA] at h
      simp only [Prod.mk.injEq, Res.ok.injEq] at h
      obtain ⟨h1, h2⟩ := h
      subst h2
      refine ⟨_, X, A, hX, rfl, rfl, rfl, rfl, rfl, rfl, rfl, rfl, rfl, ?_, h1.symm⟩
      rw [getD_set, if_pos ⟨rfl, hi⟩]

/-- round 2 -/
theorem r2Exec_all {p p' : Party} {w : Bytes} (h : r2Exec p = (.ok w, p')) : ∃ X A, p.save.pubXj.getD p.index none = some X ∧
    p.commitedA = some A ∧ w = wireBytes (.kg2 p.ssid p.srid (intBytes X.x) (intBytes X.y) (intBytes A.x) (intBytes A.y) p.u [] [] []) ∧
    p'.index = p.index ∧ p'.ids = p.ids ∧ p'.ssid = p.ssid ∧ p'.srid = p.srid ∧ p'.u = p.u ∧ p'.tau = p.tau ∧
    p'.commitedA = p.commitedA ∧ p'.payload = p.payload ∧ p'.save = p.save := by
  unfold r2Exec at h
  simp only at h
  have hinv : ∀ s : Party, forJ r2Step (List.range (resetOK { p with number := 2 }).m1.length) (resetOK { p with number := 2 }) = (.ok (), s) →
      s.index = p.index ∧ s.ids = p.ids ∧ s.ssid = p.ssid ∧ s.srid = p.srid ∧ s.u = p.u ∧ s.tau = p.tau ∧
      s.commitedA = p.commitedA ∧ s.payload = p.payload ∧ s.save = p.save := by
    intro s hs
    have := forJ_inv (step := r2Step) (fun s => s.index = p.index ∧ s.ids = p.ids ∧ s.ssid = p.ssid ∧ s.srid = p.srid ∧ s.u = p.u ∧
      s.tau = p.tau ∧ s.commitedA = p.commitedA ∧ s.payload = p.payload ∧ s.save = p.save)
      (fun s j hs => by unfold r2Step; split <;> exact hs) (List.range (resetOK { p with number := 2 }).m1.length)
      (resetOK { p with number := 2 }) ⟨rfl, rfl, rfl, rfl, rfl, rfl, rfl, rfl, rfl⟩
    rw [hs] at this
    exact this
  cases hr : forJ r2Step (List.range (resetOK { p with number := 2 }).m1.length) (resetOK { p with number := 2 }) with
  | mk r s1 =>
    rw [hr] at h
    cases r with
    | err er => simp at h
    | panic => simp at h
    | ok u =>
      obtain ⟨a1, a2, a3, a4, a5, a6, a7, a8, a9⟩ := hinv s1 hr
      simp only at h
      cases hX : s1.save.pubXj.getD s1.index none with
      | none => rw [hX] at h; simp at h
      | some X =>
        cases hA : s1.commitedA with
        | none => rw [hX, hA] at h; simp at h
        | some A =>
          rw [hX, hA] at h
          simp only [Prod.mk.injEq, Res.ok.injEq] at h
          obtain ⟨h1, h2⟩ := h
          subst h2
          rw [a9, a1] at hX
          rw [a7] at hA
          refine ⟨X, A, hX, hA, ?_, a1, a2, a3, a4, a5, a6, hA.symm, a8, a9⟩
          rw [← h1, a3, a4, a5]

/-- what a party holds whose client has run rounds 1 and 2 -/
structure Held (e : Env) (i : Nat) (x tau : Int) (X A : ECPoint) (srid u : Bytes) (p : Party) : Prop where
  index : p.index = i
  X_eq : ECPoint.scalarBaseMult e.c x = some X
  A_eq : ECPoint.scalarBaseMult e.c tau = some A
  ssid : p.ssid = ssidConst
  u_eq : p.u = u
  tau_eq : p.tau = some tau
  cA : p.commitedA = some A
  priv : p.save.privXi = some x
  own : p.save.pubXj.getD i none = some X
  sr : p.srid = srid

theorem twoRounds {e : Env} {key w1 w2 : Bytes} {M1 : List Bytes} {r : Reg} (h : spec.TwoRounds e key w1 M1 w2 r) :
    Reach e r ∧ ∃ p i x tau X A srid u, r key = some p ∧ Held e i x tau X A srid u p ∧
      w1 = wireBytes (.kg1 (commitHash e.H ssidConst i srid X A u)) ∧
      w2 = wireBytes (.kg2 ssidConst srid (intBytes X.x) (intBytes X.y) (intBytes A.x) (intBytes A.y) u [] [] []) ∧
      ∀ j, j < p.ids.length → ∃ c, parseWireMsg (M1.getD j []) = some (.kg1 c) ∧ p.V.getD j [] = c := by
  obtain ⟨rnd, r0, r1, r2, ops1, ops2, q, hr, h1, a1, hq, hM, h2, a2, rfl⟩ := h
  have hr1 : Reach e r1 := by
    have := Reach.step (Op.exec1 key rnd) hr
    rwa [show ((Op.exec1 key rnd).run e r0).2 = r1 by show (KeygenRound1Exec e rnd r0 key).2 = r1; rw [h1]] at this
  have hrq := reach_runOps ops1 hr1
  have hr2 : Reach e r2 := by
    have := Reach.step (Op.exec2 key) hrq
    rwa [show ((Op.exec2 key).run e (runOps e ops1 r1)).2 = r2 by show (KeygenRound2Exec _ key).2 = r2; rw [h2]] at this
  refine ⟨reach_runOps ops2 hr2, ?_⟩
  obtain ⟨p0, p1, b0, b1, b2⟩ := withParty_ok h1
  have i0 := reach_inv e hr key p0 b0
  obtain ⟨x, X, A, c1, c2, c3, c4, c5, c6, c7, c8, c9, c10, c11, c12⟩ := r1Exec_all b1 (by rw [i0.lpub]; exact i0.idx)
  obtain ⟨q', d1, k1⟩ := runOps_same e key ops1 r1 p1 b2 a1
  rw [hq] at d1; cases d1
  obtain ⟨q', q2, d1, d2, d3⟩ := withParty_ok h2
  rw [hq] at d1; cases d1
  have iq := reach_inv e hrq key q hq
  obtain ⟨X', A', f1, f2, f3, f4, f5, f6, f7, f8, f9, f10, f11, f12⟩ := r2Exec_all d2
  have hV := C18_round2_records q q2 w2 d2
  obtain ⟨p, g1, k2⟩ := runOps_same e key ops2 r2 q2 d3 a2
  have eX : X' = X := by
    rw [k1.pub, k1.index, c3] at f1
    rw [c11] at f1
    exact (Option.some.inj f1).symm
  have eA : A' = A := by
    rw [k1.A, c9] at f2
    exact (Option.some.inj f2).symm
  subst eX eA
  refine ⟨p, p0.index, x, rnd.tau, X', A', rnd.srid, rnd.u, g1, ⟨?_, c1, c2, ?_, ?_, ?_, ?_, ?_, ?_, ?_⟩, c12, ?_, ?_⟩
  · rw [k2.index, f4, k1.index, c3]
  · rw [k2.ssid, f6, k1.ssid, c5]
  · rw [k2.u, f8, k1.u, c7]
  · rw [k2.tau, f9, k1.tau, c8]
  · rw [k2.A, f10, k1.A, c9]
  · rw [k2.priv, f12, k1.priv, c10]
  · rw [k2.pub, f12, k1.pub, c11]
  · rw [k2.srid, f7, k1.srid, c6]
  · rw [f3, k1.ssid, c5, k1.srid, c6, k1.u, c7]
  · intro j hj
    rw [k2.ids, f5] at hj
    obtain ⟨c, u1, u2⟩ := hV j (by rw [iq.lm1]; exact hj) (by rw [iq.lV, iq.lm1])
    exact ⟨c, by rw [← hM]; exact u1, by rw [k2.V]; exact u2⟩

/-! ### the loops -/

/-- an error of a loop is the error of one of its steps -/
theorem forJ_err {σ ε : Type} {step : σ → Nat → Res ε Unit × σ} (P : σ → Prop) (h : ∀ s j, P s → P (step s j).2) {er : ε} :
    ∀ (l : List Nat) (s : σ), P s → (forJ step l s).1 = .err er → ∃ j ∈ l, ∃ s', P s' ∧ (step s' j).1 = .err er
  | [], s, _, he => by simp [forJ] at he
  | j :: t, s, hs, he => by
    simp only [forJ] at he
    have h1 := h s j hs
    cases hst : step s j with
    | mk r s' =>
      rw [hst] at he h1
      cases r with
      | ok u =>
        obtain ⟨k, hk, s2, a, b⟩ := forJ_err P h t s' h1 he
        exact ⟨k, by simp [hk], s2, a, b⟩
      | err er' => exact ⟨j, by simp, s, hs, by rw [hst]; exact he⟩
      | panic => cases he

/-- the party number an error text names -/
def spec.named : Err → Option Nat
  | .msgNull j => some j
  | .ssidMismatch j => some j
  | .hashMismatch j => some j
  | .schnorr j => some j
  | .pubkeySum j => some j
  | _ => none

theorem r3Step_named {e : Env} {p : Party} {j k : Nat} {er : Err} (h : (r3Step e p j).1 = .err er) (hn : spec.named er = some k) :
    k = j ∧ j ≠ p.index := by
  unfold r3Step at h
  by_cases hj : j = p.index
  · rw [if_pos hj] at h; cases h
  rw [if_neg hj] at h
  refine ⟨?_, hj⟩
  split at h
  · cases h; cases hn
  · split at h
    · cases h; cases hn
    · simp only at h
      split at h
      · cases h; cases hn
      · split at h
        · cases h; exact (Option.some.inj hn).symm
        · split at h
          · cases h; exact (Option.some.inj hn).symm
          · cases h
  · cases h

theorem r4Step_named {e : Env} {p : Party} {j k : Nat} {er : Err} (h : (r4Step e p j).1 = .err er) (hn : spec.named er = some k) :
    k = j ∧ j ≠ p.index := by
  unfold r4Step at h
  by_cases hj : j = p.index
  · rw [if_pos hj] at h; cases h
  rw [if_neg hj] at h
  refine ⟨?_, hj⟩
  split at h
  · cases h; cases hn
  · split at h
    · simp only at h
      split at h
      · split at h
        · cases h
        · cases h; exact (Option.some.inj hn).symm
        · cases h
        · cases h
      · cases h
    · cases h

/-- adding points of the curve never fails -/
theorem sumPub_no_err {G : Type} [AddCommGroup G] {c : Curve} (L : Lawful c G) {er : Err} : ∀ {j : Nat} {acc : ECPoint}
    {l : List (Option ECPoint)}, c.On acc → (∀ X, some X ∈ l → c.On X) → sumPub c j acc l ≠ .err er
  | _, _, [], _, _ => by intro h; cases h
  | _, _, none :: _, _, _ => by intro h; cases h
  | j, acc, some X :: t, ha, hl => by
    have hX := hl X (by simp)
    simp only [sumPub, L.add_pt ha hX]
    exact sumPub_no_err L (L.on_pt _) fun Y hY => hl Y (by simp [hY])

/-- an error of round 3 that names a party comes from a peer whose opening is not acceptable -/
theorem r3Exec_named {e : Env} {p : Party} {er : Err} {k : Nat} (h : (r3Exec e p).1 = .err er) (hn : spec.named er = some k) :
    k ≠ p.index ∧ ¬ ∃ o, Accepts e p k o := by
  unfold r3Exec at h
  simp only at h
  have hl : (forJ (r3Step e) (List.range (resetOK { p with number := 3 }).m2.length) (resetOK { p with number := 3 })).1 = .err er := by
    cases hr : forJ (r3Step e) (List.range (resetOK { p with number := 3 }).m2.length) (resetOK { p with number := 3 }) with
    | mk r s =>
      rw [hr] at h
      cases r with
      | ok u =>
        simp only at h
        split at h <;> cases h
      | err er' => simp only at h; cases h; rfl
      | panic => simp at h
  obtain ⟨j, -, s, ⟨a1, a2, a3, a4⟩, b⟩ := forJ_err (fun s => s.m2 = p.m2 ∧ s.V = p.V ∧ s.ssid = p.ssid ∧ s.index = p.index)
    (fun s j hs => by
      unfold r3Step
      split
      · exact hs
      · split
        · exact hs
        · split
          · exact hs
          · simp only
            split
            · exact hs
            · split
              · exact hs
              · split <;> exact hs
        · exact hs) _ _ ⟨rfl, rfl, rfl, rfl⟩ hl
  obtain ⟨rfl, hj⟩ := r3Step_named b hn
  refine ⟨by rw [← a4]; exact hj, ?_⟩
  rintro ⟨o, ho⟩
  have : r3Step e s k = (.ok (), r3upd e s k) := (r3Step_ok_iff _ _ _ _).mpr ⟨fun _ => ⟨o, by
    unfold Accepts at ho ⊢; rw [a1, a2, a3]; exact ho⟩, rfl⟩
  rw [this] at b
  cases b

/-- an error of round 4 that names a party comes from a peer whose answer is not acceptable -/
theorem r4Exec_named {G : Type} [AddCommGroup G] {e : Env} (L : Lawful e.c G) {p : Party} (hinv : PInv e p) {er : Err} {k : Nat}
    (h : (r4Exec e p).1 = .err er) (hn : spec.named er = some k) :
    k ≠ p.index ∧ ¬ Proves e p k := by
  unfold r4Exec at h
  simp only at h
  have hl : (forJ (r4Step e) (List.range (resetOK { p with number := 4 }).m3.length) (resetOK { p with number := 4 })).1 = .err er := by
    cases hr : forJ (r4Step e) (List.range (resetOK { p with number := 4 }).m3.length) (resetOK { p with number := 4 }) with
    | mk r s =>
      have hs : s = resetOK { p with number := 4 } := by
        have := forJ_inv (step := r4Step e) (fun q => q = resetOK { p with number := 4 }) (fun s j hs => by rw [r4Step_same]; exact hs)
          (List.range (resetOK { p with number := 4 }).m3.length) _ rfl
        rw [hr] at this
        exact this
      subst hs
      rw [hr] at h
      cases r with
      | ok u =>
        simp only at h
        split at h
        · rename_i X0 t hp
          split at h
          · split at h
            · cases h
            · cases h; cases hn
          · next h' => exact absurd h' (sumPub_no_err L (hinv.pub_on _ (by rw [show p.save.pubXj = _ from hp]; simp))
              fun Y hY => hinv.pub_on _ (by rw [show p.save.pubXj = _ from hp]; simp [hY]))
          · cases h
        · cases h
      | err er' => simp only at h; cases h; rfl
      | panic => simp at h
  obtain ⟨j, -, s, a1, b⟩ := forJ_err (fun s => s = resetOK { p with number := 4 })
    (fun s j hs => by rw [r4Step_same]; exact hs) _ _ rfl hl
  obtain ⟨rfl, hj⟩ := r4Step_named b hn
  subst a1
  refine ⟨hj, fun hp => ?_⟩
  have : r4Step e (resetOK { p with number := 4 }) k = (.ok (), resetOK { p with number := 4 }) :=
    (r4Step_ok_iff _ _ _ _).mpr ⟨fun _ => hp, rfl⟩
  rw [this] at b
  cases b

theorem withParty_res {α : Type} {r : Reg} {key : Bytes} {f : Party → Res Err α × Party} {p : Party} (h : r key = some p) :
    (withParty r key f).1 = (f p).1 := by
  simp only [withParty, h]

/-- a round-2 message that is not absurdly long can be read -/
theorem parse_kg2 {ssid srid xx xy ax ay u : Bytes} (h : (wireBytes (.kg2 ssid srid xx xy ax ay u [] [] [])).length < 2 ^ 64) :
    parseWireMsg (wireBytes (.kg2 ssid srid xx xy ax ay u [] [] [])) = some (.kg2 ssid srid xx xy ax ay u [] [] []) := by
  have h1 : (Content.kg2 ssid srid xx xy ax ay u [] [] []).marshal.length ≤ (wireBytes (.kg2 ssid srid xx xy ax ay u [] [] [])).length := by
    unfold wireBytes
    have := encField_ge 2 (Content.kg2 ssid srid xx xy ax ay u [] [] []).marshal
    simp only [List.length_append]
    omega
  apply parse_wireBytes
  · intro b hb
    refine lt_of_le_of_lt ?_ h
    refine le_trans ?_ h1
    have e1 := encField_ge 1 ssid
    have e3 := encField_ge 3 srid
    have e4 := encField_ge 4 xx
    have e5 := encField_ge 5 xy
    have e6 := encField_ge 6 ax
    have e7 := encField_ge 7 ay
    have e8 := encField_ge 8 u
    simp only [Content.parts, List.mem_cons, List.not_mem_nil, or_false] at hb
    simp only [Content.marshal, List.length_append]
    rcases hb with rfl | rfl | rfl | rfl | rfl | rfl | rfl | rfl | rfl | rfl <;> first | omega | simp
  · omega


variable {G : Type} [AddCommGroup G]

/-- reading the round-2 message of an honest client -/
theorem opening_held {e : Env} (L : Lawful e.c G) (hpos : ∀ g, 0 ≤ (L.coords g).1 ∧ 0 ≤ (L.coords g).2) {x tau : Int} {X A : ECPoint}
    (hX : ECPoint.scalarBaseMult e.c x = some X) (hA : ECPoint.scalarBaseMult e.c tau = some A) {srid u : Bytes}
    (hl : (wireBytes (.kg2 ssidConst srid (intBytes X.x) (intBytes X.y) (intBytes A.x) (intBytes A.y) u [] [] [])).length < 2 ^ 64) :
    opening e.c (wireBytes (.kg2 ssidConst srid (intBytes X.x) (intBytes X.y) (intBytes A.x) (intBytes A.y) u [] [] [])) =
      some ⟨X, A, ssidConst, srid, u⟩ := by
  rw [L.scalarBaseMult_pt] at hX hA
  cases hX
  cases hA
  unfold opening
  rw [parse_kg2 hl]
  simp only [Lawful.pt, beNat_coord (hpos _).1, beNat_coord (hpos _).2, L.new_coords]

/-- C81. Round 3 never blames an honest peer. Party `i` and party `j` have each run rounds 1 and 2 once, in whatever
processes and with whatever calls in between. If `i` holds what the calls of `j` returned (the round-1 message when it ran
round 2, the round-2 message now), then round 3 of `i` does not return an error that names `j` – whatever the messages
of all other parties are. -/
theorem C81_round3 {e : Env} (L : Lawful e.c G) (hpos : ∀ g, 0 ≤ (L.coords g).1 ∧ 0 ≤ (L.coords g).2)
    {ki kj wi1 wi2 wj1 wj2 : Bytes} {Mi Mj : List Bytes} {r r' : Reg} {p q : Party}
    (hi : spec.TwoRounds e ki wi1 Mi wi2 r) (hp : r ki = some p) (hj : spec.TwoRounds e kj wj1 Mj wj2 r') (hq : r' kj = some q)
    (hlt : q.index < p.ids.length) (hl1 : wj1.length < 2 ^ 64) (hl2 : wj2.length < 2 ^ 64)
    (hm1 : Mi.getD q.index [] = wj1) (hm2 : p.m2.getD q.index [] = wj2) (er : Err)
    (he : (KeygenRound3Exec e r ki).1 = .err er) : spec.named er ≠ some q.index := by
  intro hn
  obtain ⟨-, p', i, xi, ti, Xi, Ai, si, ui, b0, b1, -, -, b4⟩ := twoRounds hi
  rw [hp] at b0; cases b0
  obtain ⟨-, q', j, x, tau, X, A, srid, u, c0, c1, c2, c3, -⟩ := twoRounds hj
  rw [hq] at c0; cases c0
  rw [KeygenRound3Exec, withParty_res hp] at he
  obtain ⟨-, hno⟩ := r3Exec_named he hn
  obtain ⟨c, d1, d2⟩ := b4 q.index hlt
  have hidx := c1.index
  subst c2 c3 hidx
  rw [hm1, parse_kg1 hl1] at d1
  cases d1
  refine hno ⟨⟨X, A, ssidConst, srid, u⟩, ?_, b1.ssid.symm, ?_⟩
  · rw [hm2]; exact opening_held L hpos c1.X_eq c1.A_eq hl2
  · rw [b1.ssid, d2]

/-- a round-3 message that is not absurdly long can be read -/
theorem parse_kg3 {z : Bytes} (h : (wireBytes (.kg3 z [] [])).length < 2 ^ 64) :
    parseWireMsg (wireBytes (.kg3 z [] [])) = some (.kg3 z [] []) := by
  have h1 : (Content.kg3 z [] []).marshal.length ≤ (wireBytes (.kg3 z [] [])).length := by
    unfold wireBytes
    have := encField_ge 2 (Content.kg3 z [] []).marshal
    simp only [List.length_append]
    omega
  have h2 : z.length ≤ (Content.kg3 z [] []).marshal.length := by
    have := encField_ge 1 z
    simp only [Content.marshal, List.length_append]
    omega
  apply parse_wireBytes
  · intro b hb
    simp only [Content.parts, List.mem_cons, List.not_mem_nil, or_false] at hb
    rcases hb with rfl | rfl <;> first | omega | simp
  · omega

/-- what a party holds whose client has run rounds 1 to 3 -/
theorem threeRounds {e : Env} {key w1 w2 w3 : Bytes} {M1 M2 : List Bytes} {r : Reg} (h : spec.ThreeRounds e key w1 M1 w2 M2 w3 r) :
    Reach e r ∧ ∃ p2 p3 p i x tau X A srid u, r key = some p ∧ PInv e p2 ∧ p2.m2 = M2 ∧ Held e i x tau X A srid u p2 ∧ Same p3 p ∧
      r3Exec e p2 = (.ok w3, p3) ∧ p3.index = i ∧ p3.ids = p2.ids ∧ p3.ssid = ssidConst ∧
      w2 = wireBytes (.kg2 ssidConst srid (intBytes X.x) (intBytes X.y) (intBytes A.x) (intBytes A.y) u [] [] []) ∧
      w3 = wireBytes (.kg3 (intBytes (Schnorr.Prove e.c.N tau (challenge e ssidConst p3.srid i X A) x)) [] []) := by
  obtain ⟨r2, r3, ops3, q, h2, hq, hM, h3, a3, rfl⟩ := h
  obtain ⟨hr2, p2, i, x, tau, X, A, srid, u, b0, b1, -, b3, -⟩ := twoRounds h2
  rw [hq] at b0; cases b0
  have hr3 : Reach e r3 := by
    have := Reach.step (Op.exec3 key) hr2
    rwa [show ((Op.exec3 key).run e r2).2 = r3 by show (KeygenRound3Exec e r2 key).2 = r3; rw [h3]] at this
  obtain ⟨q', p3, c0, c1, c2⟩ := withParty_ok h3
  rw [hq] at c0; cases c0
  obtain ⟨p, d0, d1⟩ := runOps_same e key ops3 r3 p3 c2 a3
  obtain ⟨-, X', A', tau', x', f1, f2, f3, f4, f5⟩ := C19_single_run e q p3 w3 c1
  have k : Keeps 2 q p3 := by have := r3Exec_keeps e q; rwa [c1] at this
  have hssid : p3.ssid = q.ssid := by
    obtain ⟨-, pay, pub, _, _, _, _, -, -, -, -, -, -, -, -, -, rfl⟩ := r3Exec_ok c1
    rfl
  rw [k.own, b1.index, b1.own] at f1
  rw [b1.cA] at f2
  rw [b1.tau_eq] at f3
  rw [b1.priv] at f4
  cases f1
  cases f2
  cases f3
  cases f4
  refine ⟨reach_runOps ops3 hr3, q, p3, p, i, x, tau, X, A, srid, u, d0, reach_inv e hr2 key q hq, hM, b1, d1, c1,
    by rw [k.idx, b1.index], k.ids, by rw [hssid, b1.ssid], b3, ?_⟩
  rw [f5, b1.ssid, b1.index]

/-- C81. Round 4 does not blame an honest peer that saw the same round-2 messages. Party `i` and party `j` have each run
rounds 1 to 3 once. If each was given the other's round-2 message, both were given the same round-2 messages of all others,
and `i` holds the round-3 message of `j`, then round 4 of `i` does not return an error that names `j` – whatever the
others sent in rounds 1 and 3. -/
theorem C81_round4 {e : Env} (L : Lawful e.c G) (hpos : ∀ g, 0 ≤ (L.coords g).1 ∧ 0 ≤ (L.coords g).2)
    {ki kj wi1 wi2 wi3 wj1 wj2 wj3 : Bytes} {Mi1 Mi2 Mj1 Mj2 : List Bytes} {r r' : Reg} {p q : Party}
    (hi : spec.ThreeRounds e ki wi1 Mi1 wi2 Mi2 wi3 r) (hp : r ki = some p)
    (hj : spec.ThreeRounds e kj wj1 Mj1 wj2 Mj2 wj3 r') (hq : r' kj = some q) (hn : p.ids.length = q.ids.length)
    (hl2 : wi2.length < 2 ^ 64) (hl2' : wj2.length < 2 ^ 64) (hl3 : wj3.length < 2 ^ 64)
    (hij : Mi2.getD q.index [] = wj2) (hji : Mj2.getD p.index [] = wi2)
    (hsame : ∀ k, k < p.ids.length → k ≠ p.index → k ≠ q.index → Mi2.getD k [] = Mj2.getD k [])
    (hm3 : p.m3.getD q.index [] = wj3) (er : Err)
    (he : (KeygenRound4Exec e r ki).1 = .err er) : spec.named er ≠ some q.index := by
  intro hnm
  obtain ⟨hri, p2, p3, p', i, xi, ti, Xi, Ai, si, ui, b0, ip2, bM, b1, b2, b3, b4, b5, b6, b7, -⟩ := threeRounds hi
  rw [hp] at b0; cases b0
  obtain ⟨hrj, q2, q3, q', j, x, tau, X, A, srid, u, c0, iq2, cM, c1, c2, c3, c4, c5, c6, c7, c8⟩ := threeRounds hj
  rw [hq] at c0; cases c0
  have hpi : p.index = i := by rw [b2.index, b4]
  have hqj : q.index = j := by rw [c2.index, c4]
  have hpn : p.ids = p2.ids := by rw [b2.ids, b5]
  have hqn : q.ids = q2.ids := by rw [c2.ids, c5]
  have ip := reach_inv e hri ki p hp
  have iq := reach_inv e hrj kj q hq
  rw [KeygenRound4Exec, withParty_res hp] at he
  obtain ⟨hne, hno⟩ := r4Exec_named L ip he hnm
  rw [hpi, hqj] at hne
  have ho : opening e.c wj2 = some ⟨X, A, ssidConst, srid, u⟩ := by
    rw [c7] at hl2' ⊢; exact opening_held L hpos c1.X_eq c1.A_eq hl2'
  have ho' : opening e.c wi2 = some ⟨Xi, Ai, ssidConst, si, ui⟩ := by
    rw [b7] at hl2 ⊢; exact opening_held L hpos b1.X_eq b1.A_eq hl2
  -- both have the same session randomness
  have hsr : p3.srid = q3.srid := by
    have s1 := (C19_single_run e p2 p3 wi3 b3).1
    have s2 := (C19_single_run e q2 q3 wj3 c3).1
    have f1 : ∀ (s : Party) (sr : Bytes) (m : Nat), s.index = m → m < s.m2.length → s.srid = sr → xorBytes s.srid (xorAll (peerSrids e.c s)) =
        xorAll ((List.range s.m2.length).map fun k => if k = m then sr else sridOf e.c s k) := by
      intro s sr m hm hlt hs
      have := xor_split (fun k => if k = m then sr else sridOf e.c s k) m (List.range s.m2.length) List.nodup_range
        (List.mem_range.mpr hlt)
      rw [← this]
      simp only [if_true]
      rw [hs]
      congr 2
      unfold peerSrids
      rw [hm]
      apply List.map_congr_left
      intro k hk
      simp only [List.mem_filter, decide_eq_true_eq] at hk
      simp [hk.2]
    have hi2 : i < p2.m2.length := by rw [ip2.lm2, ← b1.index]; exact ip2.idx
    have hj2 : j < q2.m2.length := by rw [iq2.lm2, ← c1.index]; exact iq2.idx
    rw [s1, s2, f1 p2 si i b1.index hi2 b1.sr, f1 q2 srid j c1.index hj2 c1.sr]
    have hlen : p2.m2.length = q2.m2.length := by rw [ip2.lm2, iq2.lm2, ← hpn, ← hqn, hn]
    rw [← hlen]
    congr 1
    apply List.map_congr_left
    intro k hk
    rw [List.mem_range] at hk
    have e1 : ∀ s : Party, sridOf e.c s k = match opening e.c (s.m2.getD k []) with | some o => o.srid | none => [] := fun _ => rfl
    by_cases hki : k = i
    · subst hki
      rw [if_pos rfl, if_neg (fun h => hne h.symm), e1, cM, ← hpi, hji, ho']
    · rw [if_neg hki]
      by_cases hkj : k = j
      · subst hkj
        rw [if_pos rfl, e1, bM, ← hqj, hij, ho]
      · rw [if_neg hkj, e1, e1, bM, cM, hsame k (by rw [hpn, ← ip2.lm2]; exact hk) (by rw [hpi]; exact hki) (by rw [hqj]; exact hkj)]
  -- the opening of `j` is what `i` stored
  have hjlt : j < p2.m2.length := by rw [ip2.lm2, ← hpn, hn, ← hqj]; exact iq.idx
  obtain ⟨hacc, pay, pub, _, _, _, _, -, -, -, -, g2, g3, g4, g5, -, hp3⟩ := r3Exec_ok b3
  have hpub : p.save.pubXj.getD j none = some X := by
    rw [b2.pub, hp3]
    show pub.getD j none = _
    rw [g5 j, if_pos ⟨hjlt, by rw [b1.index]; exact hne, by rw [ip2.lpub, ← ip2.lm2]; exact hjlt⟩, bM, ← hqj, hij, ho]
    rfl
  have hpay : p.payload.getD j none = some ⟨A, ssidConst, srid, u⟩ := by
    rw [b2.pay, hp3]
    show pay.getD j none = _
    rw [g4 j, if_pos ⟨hjlt, by rw [b1.index]; exact hne, by rw [ip2.lpay, ← ip2.lm2]; exact hjlt⟩, bM, ← hqj, hij, ho]
    rfl
  apply hno
  rw [hqj]
  refine ⟨intBytes (Schnorr.Prove e.c.N tau (challenge e ssidConst q3.srid j X A) x), [], [], X, ⟨A, ssidConst, srid, u⟩, ?_, hpub,
    hpay, ?_⟩
  · rw [show p.m3.getD j [] = wj3 by rw [← hqj]; exact hm3, c8]; exact parse_kg3 (by rw [← c8]; exact hl3)
  · rw [beNat_coord (Schnorr.C28_response_range _ _ _ _ L.N_pos).1, b2.ssid, b6, b2.srid, hsr]
    exact Schnorr.C28_prove_verify L x tau _ X A c1.X_eq c1.A_eq

end Tss.Keygen
