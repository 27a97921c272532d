import Verif.Props.KeygenHonest
import Verif.Lemmas.KeygenFixed
/-! C80: the key is fixed before a party reveals its share, all parties that saw the same round-1 messages end with the
same key – and parties that did not may end with different ones. -/
namespace Tss.Keygen
open Tss Text Wire

/-! ### histories -/

/-- Calls one after the other. -/
def runOps (e : Env) : List Op → Reg → Reg
  | [], r => r
  | op :: t, r => runOps e t (op.run e r).2

/-- The round a call runs; creating and removing a party count as 0, everything that is not a round as 5. -/
def spec.round : Op → Nat
  | .new .. => 0
  | .remove _ => 0
  | .exec1 _ _ => 1
  | .exec2 _ => 2
  | .exec3 _ => 3
  | .exec4 _ => 4
  | _ => 5

/-- Any calls, except that the party under `key` is not created, removed or sent back to a round up to `k`. -/
def spec.After (k : Nat) (key : Bytes) (ops : List Op) : Prop := ∀ op ∈ ops, op.key = key → k < spec.round op

/-- From registry `r` (the party under `key` has just run round 2), with any calls in between, the party runs round 3 and
round 4 with success, and is then `p`; round 3 finds the round-2 messages `M`. -/
def spec.Completes (e : Env) (key : Bytes) (r : Reg) (M : List Bytes) (p : Party) : Prop :=
  ∃ (ops2 ops3 : List Op) (w3 out : Bytes) (r3 r4 : Reg) (q : Party), spec.After 2 key ops2 ∧
    runOps e ops2 r key = some q ∧ q.m2 = M ∧
    KeygenRound3Exec e (runOps e ops2 r) key = (.ok w3, r3) ∧ spec.After 3 key ops3 ∧
    KeygenRound4Exec e (runOps e ops3 r3) key = (.ok out, r4) ∧ r4 key = some p

/-- The parts by which a party that ran with draws `rnd` and round-2 messages `M` knows party `j`: for a peer what the peer's round-2
message opens, for itself what it committed to in round 1. -/
def spec.parts (e : Env) (rnd : Rand1) (M : List Bytes) (p : Party) (j : Nat) : List Bytes :=
  if j = p.index then
    match p.save.pubXj.getD j none, ECPoint.scalarBaseMult e.c rnd.tau with
    | some X, some A => [ssidConst, itoa j, rnd.srid, intBytes X.x, intBytes X.y, intBytes A.x, intBytes A.y, rnd.u]
    | _, _ => []
  else spec.opening j (M.getD j [])

/-- From a reachable registry the party under `key` runs rounds 1 to 4 with success, with any calls in between: round 1
draws `rnd` and returns `w`, round 2 finds the round-1 messages `M1`, round 3 the round-2 messages `M2`, at the end the party
is `p`. -/
def spec.Ran (e : Env) (key w : Bytes) (rnd : Rand1) (M1 M2 : List Bytes) (p : Party) : Prop :=
  ∃ (r0 r1 r2 : Reg) (ops1 : List Op) (w2 : Bytes) (q : Party), Reach e r0 ∧
    KeygenRound1Exec e rnd r0 key = (.ok w, r1) ∧ spec.After 1 key ops1 ∧ runOps e ops1 r1 key = some q ∧ q.m1 = M1 ∧
    KeygenRound2Exec (runOps e ops1 r1) key = (.ok w2, r2) ∧ spec.Completes e key r2 M2 p

/-! ### what is kept -/

/-- what the calls after round `k` leave alone -/
structure Keeps (k : Nat) (p q : Party) : Prop where
  idx : q.index = p.index
  ids : q.ids = p.ids
  own : q.save.pubXj.getD p.index none = p.save.pubXj.getD p.index none
  V : 2 ≤ k → q.V = p.V
  pub : 3 ≤ k → q.save.pubXj = p.save.pubXj

theorem Keeps.rfl {k : Nat} {p : Party} : Keeps k p p := ⟨.refl _, .refl _, .refl _, fun _ => .refl _, fun _ => .refl _⟩

theorem Keeps.trans {k : Nat} {p q s : Party} (h : Keeps k p q) (g : Keeps k q s) : Keeps k p s :=
  ⟨g.idx.trans h.idx, g.ids.trans h.ids, by rw [← h.idx, g.own, h.idx, h.own], fun hk => (g.V hk).trans (h.V hk),
    fun hk => (g.pub hk).trans (h.pub hk)⟩

theorem Keeps.of_eq {k : Nat} {p q : Party} (h1 : q.index = p.index) (h2 : q.ids = p.ids) (h3 : q.save.pubXj = p.save.pubXj)
    (h4 : q.V = p.V) : Keeps k p q := ⟨h1, h2, by rw [h3], fun _ => h4, fun _ => h3⟩

theorem forJ_keeps {ε : Type} {k : Nat} {step : Party → Nat → Res ε Unit × Party} (h : ∀ p j, Keeps k p (step p j).2) (l : List Nat)
    (p : Party) : Keeps k p (forJ step l p).2 := forJ_inv (fun q => Keeps k p q) (fun s j hs => hs.trans (h s j)) l p .rfl

theorem r2Step_keeps (p : Party) (j : Nat) : Keeps 1 p (r2Step p j).2 := by
  unfold r2Step
  split <;> exact ⟨.refl _, .refl _, .refl _, fun h => by omega, fun h => by omega⟩

theorem r2Exec_keeps (p : Party) : Keeps 1 p (r2Exec p).2 := by
  have h0 : Keeps 1 p (resetOK { p with number := 2 }) := .of_eq rfl rfl rfl rfl
  unfold r2Exec
  simp only
  generalize resetOK { p with number := 2 } = q at h0 ⊢
  have h1 := h0.trans (forJ_keeps r2Step_keeps (List.range q.m1.length) q)
  split
  · next heq =>
    rw [heq] at h1
    split
    · exact h1.trans (.of_eq rfl rfl rfl rfl)
    · exact h1
  · next heq => rw [heq] at h1; exact h1
  · next heq => rw [heq] at h1; exact h1

theorem setPub_keeps {p : Party} {j : Nat} (h : j ≠ p.index) (X : Option ECPoint) (pay : List (Option Payload)) (sr : Bytes) :
    Keeps 2 p { p with payload := pay, srid := sr, save := { p.save with pubXj := p.save.pubXj.set j X } } := by
  refine ⟨rfl, rfl, ?_, fun _ => rfl, fun h => by omega⟩
  show (p.save.pubXj.set j X).getD p.index none = _
  rw [getD_set, if_neg (by intro hh; exact h (by omega))]

theorem r3Step_keeps (e : Env) (p : Party) (j : Nat) : Keeps 2 p (r3Step e p j).2 := by
  unfold r3Step
  split
  · exact .rfl
  · next hj =>
    split
    · exact .rfl
    · split
      · exact .of_eq rfl rfl rfl rfl
      · simp only
        split
        · exact setPub_keeps hj none _ p.srid
        · next X _ =>
          split
          · exact setPub_keeps hj (some X) _ p.srid
          · split
            · exact setPub_keeps hj (some X) _ p.srid
            · exact setPub_keeps hj (some X) _ _
    · exact .rfl

theorem r3Exec_keeps (e : Env) (p : Party) : Keeps 2 p (r3Exec e p).2 := by
  have h0 : Keeps 2 p (resetOK { p with number := 3 }) := .of_eq rfl rfl rfl rfl
  unfold r3Exec
  simp only
  generalize resetOK { p with number := 3 } = q at h0 ⊢
  have h1 := h0.trans (forJ_keeps (r3Step_keeps e) (List.range q.m2.length) q)
  split
  · next heq =>
    rw [heq] at h1
    split
    · exact h1.trans (.of_eq rfl rfl rfl rfl)
    · exact h1
  · next heq => rw [heq] at h1; exact h1
  · next heq => rw [heq] at h1; exact h1

theorem r4Step_same (e : Env) (p : Party) (j : Nat) : (r4Step e p j).2 = p := by
  unfold r4Step
  split
  · rfl
  · split
    · rfl
    · split
      · simp only
        split
        · split <;> rfl
        · rfl
      · rfl

theorem r4Exec_keeps (k : Nat) (e : Env) (p : Party) : Keeps k p (r4Exec e p).2 := by
  have h0 : Keeps k p (resetOK { p with number := 4 }) := .of_eq rfl rfl rfl rfl
  unfold r4Exec
  simp only
  generalize resetOK { p with number := 4 } = q at h0 ⊢
  have h1 := h0.trans (forJ_keeps (k := k) (step := r4Step e) (fun p j => by rw [r4Step_same]; exact .rfl) (List.range q.m3.length) q)
  split
  · next heq =>
    rw [heq] at h1
    split
    · split
      · split <;> exact h1.trans (.of_eq rfl rfl rfl rfl)
      · exact h1
      · exact h1
    · exact h1
  · next heq => rw [heq] at h1; exact h1
  · next heq => rw [heq] at h1; exact h1

theorem Keeps.mono {k l : Nat} (h : k ≤ l) {p q : Party} (g : Keeps l p q) : Keeps k p q :=
  ⟨g.idx, g.ids, g.own, fun h2 => g.V (by omega), fun h3 => g.pub (by omega)⟩

theorem with_keeps {α : Type} {k : Nat} (r : Reg) (key : Bytes) (f : Party → Res Err α × Party) (p : Party) (h : r key = some p)
    (hf : Keeps k p (f p).2) : ∃ q, (withParty r key f).2 key = some q ∧ Keeps k p q := by
  simp only [withParty, h, Reg.set, if_pos]
  exact ⟨_, rfl, hf⟩

theorem accept_keeps (k : Nat) (rd : Round) (r : Reg) (key : Bytes) (frm : Int) (msg : Bytes) (p : Party) (h : r key = some p) :
    ∃ q, (rd.accept r key frm msg).2 key = some q ∧ Keeps k p q := by
  cases rd <;> (
    simp only [Round.accept, KeygenRound1Accept, KeygenRound2Accept, KeygenRound3Accept, withParty, h, Reg.set, if_pos]
    refine ⟨_, _root_.rfl, ?_⟩
    unfold accept
    split
    · exact .rfl
    · simp only
      split
      · split
        · exact .of_eq rfl rfl rfl rfl
        · split <;> exact .of_eq rfl rfl rfl rfl
      · exact .rfl)

theorem run_keeps (e : Env) (op : Op) (r : Reg) (key : Bytes) (p : Party) (h : r key = some p) {k : Nat} (hk1 : 1 ≤ k)
    (hk : op.key = key → k < spec.round op) : ∃ q, (op.run e r).2 key = some q ∧ Keeps k p q := by
  by_cases hop : op.key = key
  · specialize hk hop
    cases op with
    | new _ i n ids root => simp [spec.round] at hk
    | remove _ => simp [spec.round] at hk
    | exec1 _ rnd => simp [spec.round] at hk; omega
    | exec2 _ =>
      cases hop
      simp [spec.round] at hk
      exact with_keeps r _ _ p h ((r2Exec_keeps p).mono (by omega))
    | exec3 _ =>
      cases hop
      simp [spec.round] at hk
      exact with_keeps r _ _ p h ((r3Exec_keeps e p).mono (by omega))
    | exec4 _ => cases hop; exact with_keeps r _ _ p h (r4Exec_keeps k e p)
    | acc rd _ f m => cases hop; exact accept_keeps k rd r _ f m p h
    | fin rd _ => cases hop; cases rd <;> exact with_keeps r _ _ p h .rfl
    | saveChain _ c =>
      cases hop
      refine with_keeps r _ _ p h ?_
      simp only
      split
      · exact .rfl
      · split
        · exact .of_eq rfl rfl rfl rfl
        · exact .rfl
        · exact .rfl
  · exact ⟨p, (run_elsewhere e op r key hop).trans h, .rfl⟩

theorem runOps_keeps (e : Env) (key : Bytes) {k : Nat} (hk1 : 1 ≤ k) : ∀ (ops : List Op) (r : Reg) (p : Party), r key = some p →
    spec.After k key ops → ∃ q, runOps e ops r key = some q ∧ Keeps k p q
  | [], _, p, h, _ => ⟨p, h, .rfl⟩
  | op :: t, r, p, h, ha => by
    obtain ⟨q, h1, h2⟩ := run_keeps e op r key p h hk1 (ha op (by simp))
    obtain ⟨s, h3, h4⟩ := runOps_keeps e key hk1 t _ q h1 fun o ho => ha o (by simp [ho])
    exact ⟨s, h3, h2.trans h4⟩

theorem reach_runOps {e : Env} : ∀ (ops : List Op) {r : Reg}, Reach e r → Reach e (runOps e ops r)
  | [], _, h => h
  | op :: t, _, h => reach_runOps t (.step op h)

/-- a successful call found a party -/
theorem withParty_ok {α : Type} {r r' : Reg} {key : Bytes} {f : Party → Res Err α × Party} {w : α}
    (h : withParty r key f = (.ok w, r')) : ∃ p p', r key = some p ∧ f p = (.ok w, p') ∧ r' key = some p' := by
  unfold withParty at h
  cases hp : r key with
  | none => rw [hp] at h; simp at h
  | some p =>
    rw [hp] at h
    simp only [Prod.mk.injEq] at h
    refine ⟨p, (f p).2, rfl, ?_, ?_⟩
    · rw [← h.1]
    · rw [← h.2]; exact set_same _ _ _

/-- round 4 adds the public shares -/
theorem r4Exec_sum {e : Env} {p p' : Party} {out : Bytes} (h : r4Exec e p = (.ok out, p')) :
    ∃ X0 t s, p.save.pubXj = some X0 :: t ∧ sumPub e.c 1 X0 t = .ok s ∧ p'.save = { p.save with eddsaPub := some s } := by
  unfold r4Exec at h
  simp only at h
  have h1 : (forJ (r4Step e) (List.range (resetOK { p with number := 4 }).m3.length) (resetOK { p with number := 4 })).2 =
      resetOK { p with number := 4 } :=
    forJ_inv (fun q => q = resetOK { p with number := 4 }) (fun s j hs => by rw [r4Step_same]; exact hs) _ _ rfl
  cases hr : forJ (r4Step e) (List.range (resetOK { p with number := 4 }).m3.length) (resetOK { p with number := 4 }) with
  | mk r s1 =>
    rw [hr] at h h1
    simp only at h1
    subst h1
    cases r with
    | err er => simp at h
    | panic => simp at h
    | ok u =>
      simp only [show (resetOK { p with number := 4 }).save = p.save from rfl] at h
      cases hpub : p.save.pubXj with
      | nil => rw [hpub] at h; simp at h
      | cons o t =>
        cases o with
        | none => rw [hpub] at h; simp at h
        | some X0 =>
          rw [hpub] at h
          simp only at h
          cases hs : sumPub e.c 1 X0 t with
          | err er => rw [hs] at h; simp at h
          | panic => rw [hs] at h; simp at h
          | ok s =>
            rw [hs] at h
            simp only at h
            split at h
            · simp only [Prod.mk.injEq] at h
              exact ⟨X0, t, s, rfl, hs, by rw [← h.2]; simp only [← hpub]⟩
            · simp at h

/-- What a completed party is, in terms of the party after round 2: its own share is the one it had, every other one is an
opening of the commitment it held, and the key is their sum. -/
theorem completes_spec {e : Env} {key : Bytes} {r : Reg} {M : List Bytes} {p q : Party} (hr : Reach e r) (hq : r key = some q)
    (h : spec.Completes e key r M p) :
    p.index = q.index ∧ p.ids = q.ids ∧ p.save.pubXj.length = q.ids.length ∧
    p.save.pubXj.getD q.index none = q.save.pubXj.getD q.index none ∧
    (∀ j, j < q.ids.length → j ≠ q.index → ∃ ssid srid ax ay u, ∃ xx xy : Nat,
      p.save.pubXj.getD j none = some ⟨xx, xy⟩ ∧ spec.opening j (M.getD j []) = [ssid, itoa j, srid, natBE xx, natBE xy, ax, ay, u] ∧
      e.H (Common.frame [ssid, itoa j, srid, natBE xx, natBE xy, ax, ay, u]) = q.V.getD j []) ∧
    ∃ X0 t s, p.save.pubXj = some X0 :: t ∧ sumPub e.c 1 X0 t = .ok s ∧ p.save.eddsaPub = some s := by
  obtain ⟨ops2, ops3, w3, out, r3, r4, qm, a2, hqm, hM, h3, a3, h4, hp⟩ := h
  obtain ⟨q1, b1, k1⟩ := runOps_keeps e key (by omega) ops2 r q hq a2
  obtain rfl : q1 = qm := Option.some.inj (b1.symm.trans hqm)
  obtain ⟨q1', q2, c1, c2, c3⟩ := withParty_ok h3
  rw [b1] at c1; cases c1
  have k2 : Keeps 2 q1 q2 := by have := r3Exec_keeps e q1; rwa [c2] at this
  obtain ⟨q3, b3, k3⟩ := runOps_keeps e key (by omega) ops3 r3 q2 c3 a3
  obtain ⟨q3', q4, d1, d2, d3⟩ := withParty_ok h4
  rw [b3] at d1; cases d1
  rw [hp] at d3; cases d3
  have k4 : Keeps 3 q3 p := by have := r4Exec_keeps 3 e q3; rwa [d2] at this
  have inv1 : PInv e q1 := reach_inv e (reach_runOps ops2 hr) key q1 b1
  have hpub : p.save.pubXj = q2.save.pubXj := (k4.pub (by omega)).trans (k3.pub (by omega))
  have k02 := k1.trans k2
  have hl : p.save.pubXj.length = q.ids.length := by
    have hi : PInv e q2 := by have := inv1.r3; rwa [c2] at this
    rw [hpub, hi.lpub, k02.ids]
  refine ⟨?_, ?_, hl, ?_, ?_, ?_⟩
  · rw [k4.idx, k3.idx, k2.idx, k1.idx]
  · rw [k4.ids, k3.ids, k2.ids, k1.ids]
  · rw [hpub, k02.own]
  · intro j hj hji
    obtain ⟨srid, xx, xy, ax, ay, u, _, _, _, g0, -, -, g1, g2, -⟩ := C18_openings e q1 q2 w3 c2 j
      (by rw [inv1.lm2, k1.ids]; exact hj) (by rw [k1.idx]; exact hji) (by rw [inv1.lpay, inv1.lm2]) (by rw [inv1.lpub, inv1.lm2])
    rw [k1.V (by omega)] at g1
    exact ⟨q1.ssid, srid, _, _, u, beNat xx, beNat xy, by rw [hpub]; exact g2, by unfold spec.opening; rw [← hM, g0], g1⟩
  · obtain ⟨X0, t, s, e1, e2, e3⟩ := r4Exec_sum d2
    refine ⟨X0, t, s, by rw [e3]; exact e1, e2, by rw [e3]⟩


/-- equal shares add up to equal keys -/
theorem key_eq {e : Env} {p q : Party} (h : p.save.pubXj = q.save.pubXj)
    (hp : ∃ X0 t s, p.save.pubXj = some X0 :: t ∧ sumPub e.c 1 X0 t = .ok s ∧ p.save.eddsaPub = some s)
    (hq : ∃ X0 t s, q.save.pubXj = some X0 :: t ∧ sumPub e.c 1 X0 t = .ok s ∧ q.save.eddsaPub = some s) :
    p.save.eddsaPub = q.save.eddsaPub := by
  obtain ⟨X, t, s, a1, a2, a3⟩ := hp
  obtain ⟨Y, u, v, b1, b2, b3⟩ := hq
  rw [h, b1] at a1
  simp only [List.cons.injEq, Option.some.injEq] at a1
  obtain ⟨rfl, rfl⟩ := a1
  rw [a2] at b2
  rw [a3, b3, Res.ok.inj b2]

theorem list_eq_of_getD {l m : List (Option ECPoint)} (h : l.length = m.length)
    (g : ∀ j, j < l.length → l.getD j none = m.getD j none) : l = m := by
  apply List.ext_getElem h
  intro j h1 h2
  have := g j h1
  rw [List.getD_eq_getElem?_getD, List.getD_eq_getElem?_getD, List.getElem?_eq_getElem h1, List.getElem?_eq_getElem h2] at this
  exact this

/-- C80. The key is fixed before the party reveals its share. A party has run round 2 (the call that first returns its
share). Whatever is delivered, and whatever calls are made, from then on: any two ways in which it can complete end with
the same public shares of all parties and the same group key – or for some peer the two round-2 messages it went by open
different parts with the same commitment hash. -/
theorem C80_key_fixed {e : Env} {key w : Bytes} {r0 r2 : Reg} {M M' : List Bytes} {p p' : Party} (hr : Reach e r0)
    (h2 : KeygenRound2Exec r0 key = (.ok w, r2)) (h : spec.Completes e key r2 M p) (h' : spec.Completes e key r2 M' p') :
    (p.save.pubXj = p'.save.pubXj ∧ p.save.eddsaPub = p'.save.eddsaPub) ∨
    ∃ j, j < p.ids.length ∧ j ≠ p.index ∧ spec.opening j (M.getD j []) ≠ spec.opening j (M'.getD j []) ∧
      e.H (Common.frame (spec.opening j (M.getD j []))) = e.H (Common.frame (spec.opening j (M'.getD j []))) := by
  have hr2 : Reach e r2 := by
    have := Reach.step (Op.exec2 key) hr
    rwa [show ((Op.exec2 key).run e r0).2 = r2 by show (KeygenRound2Exec r0 key).2 = r2; rw [h2]] at this
  obtain ⟨-, q, -, -, hq⟩ := withParty_ok h2
  obtain ⟨ai, aq, a1, a2, a3, a4⟩ := completes_spec hr2 hq h
  obtain ⟨-, -, b1, b2, b3, b4⟩ := completes_spec hr2 hq h'
  by_cases hc : ∃ j, j < p.ids.length ∧ j ≠ p.index ∧ spec.opening j (M.getD j []) ≠ spec.opening j (M'.getD j []) ∧
      e.H (Common.frame (spec.opening j (M.getD j []))) = e.H (Common.frame (spec.opening j (M'.getD j [])))
  · exact .inr hc
  left
  have hpub : p.save.pubXj = p'.save.pubXj := by
    refine list_eq_of_getD (by rw [a1, b1]) fun j hj => ?_
    rw [a1] at hj
    by_cases hji : j = q.index
    · subst hji; rw [a2, b2]
    · obtain ⟨s1, t1, u1, v1, x1, xx, xy, g1, g0, g2⟩ := a3 j hj hji
      obtain ⟨s2, t2, u2, v2, x2, yx, yy, f1, f0, f2⟩ := b3 j hj hji
      have heq : [s1, itoa j, t1, natBE xx, natBE xy, u1, v1, x1] = [s2, itoa j, t2, natBE yx, natBE yy, u2, v2, x2] := by
        by_contra hne
        exact hc ⟨j, by rw [aq]; exact hj, by rw [ai]; exact hji, by rw [g0, f0]; exact hne, by rw [g0, f0, g2, f2]⟩
      simp only [List.cons.injEq, and_true, true_and] at heq
      rw [g1, f1, natBE_injective heq.2.2.1, natBE_injective heq.2.2.2.1]
  exact ⟨hpub, key_eq hpub a4 b4⟩


/-- what round 1 returns and where it stores the party's share -/
theorem r1Exec_ok {e : Env} {rnd : Rand1} {p p' : Party} {w : Bytes} (h : r1Exec e rnd p = (.ok w, p'))
    (hi : p.index < p.save.pubXj.length) : ∃ x X A, ECPoint.scalarBaseMult e.c x = some X ∧ ECPoint.scalarBaseMult e.c rnd.tau = some A ∧ p'.index = p.index ∧ p'.ids = p.ids ∧
      p'.save.pubXj.getD p.index none = some X ∧ w = wireBytes (.kg1 (commitHash e.H ssidConst p.index rnd.srid X A rnd.u)) := by
  unfold r1Exec at h
  simp only [resetOK] at h
  cases hX : ECPoint.scalarBaseMult e.c (p.save.privXi.getD rnd.priv) with
  | none => rw [hX] at h; simp at h
  | some X =>
    cases hA : ECPoint.scalarBaseMult e.c rnd.tau with
    | none => rw [hX, hA] at h; simp at h
    | some A =>
      rw [hX, hA] at h
      simp only [Prod.mk.injEq, Res.ok.injEq] at h
      refine ⟨_, X, A, hX, rfl, by rw [← h.2], by rw [← h.2], ?_, h.1.symm⟩
      rw [← h.2]
      show (p.save.pubXj.set p.index (some X)).getD p.index none = _
      rw [getD_set, if_pos ⟨rfl, hi⟩]

theorem encField_ge (k : Nat) (b : Bytes) : b.length ≤ (encField k b).length := by
  unfold encField
  split
  · next h => simp [h]
  · simp; omega

/-- a round-1 message that is not absurdly long can be read -/
theorem parse_kg1 {c : Bytes} (h : (wireBytes (.kg1 c)).length < 2 ^ 64) : parseWireMsg (wireBytes (.kg1 c)) = some (.kg1 c) := by
  have h1 : (Content.kg1 c).marshal.length ≤ (wireBytes (.kg1 c)).length := by
    unfold wireBytes
    have := encField_ge 2 (Content.kg1 c).marshal
    simp only [List.length_append]
    omega
  have h2 : c.length ≤ (Content.kg1 c).marshal.length := encField_ge 1 c
  apply parse_wireBytes
  · intro b hb
    simp only [Content.parts, List.mem_singleton] at hb
    subst hb
    omega
  · omega

/-- a party's own round-1 message is the commitment to the share it ends with; every other share it ends with opens the
commitment it was sent -/
theorem ran_spec {G : Type} [AddCommGroup G] {e : Env} (L : Lawful e.c G)
    (hpos : ∀ g, 0 ≤ (L.coords g).1 ∧ 0 ≤ (L.coords g).2) {key w : Bytes} {rnd : Rand1} {M M2 : List Bytes} {p : Party}
    (h : spec.Ran e key w rnd M M2 p) :
    p.index < p.ids.length ∧ p.save.pubXj.length = p.ids.length ∧
    (∃ (srid ax ay u : Bytes) (xx xy : Nat), p.save.pubXj.getD p.index none = some ⟨xx, xy⟩ ∧
      spec.parts e rnd M2 p p.index = [ssidConst, itoa p.index, srid, natBE xx, natBE xy, ax, ay, u] ∧ w = wireBytes (.kg1
      (e.H (Common.frame [ssidConst, itoa p.index, srid, natBE xx, natBE xy, ax, ay, u])))) ∧
    (∀ j, j < p.ids.length → j ≠ p.index → ∃ ssid srid ax ay u, ∃ xx xy : Nat,
      p.save.pubXj.getD j none = some ⟨xx, xy⟩ ∧ spec.parts e rnd M2 p j = [ssid, itoa j, srid, natBE xx, natBE xy, ax, ay, u] ∧
      parseWireMsg (M.getD j []) = some (.kg1 (e.H (Common.frame [ssid, itoa j, srid, natBE xx, natBE xy, ax, ay, u])))) ∧
    ∃ X0 t s, p.save.pubXj = some X0 :: t ∧ sumPub e.c 1 X0 t = .ok s ∧ p.save.eddsaPub = some s := by
  obtain ⟨r0, r1, r2, ops1, w2, q, hr, h1, a1, hq, hM, h2, hc⟩ := h
  have hr1 : Reach e r1 := by
    have := Reach.step (Op.exec1 key rnd) hr
    rwa [show ((Op.exec1 key rnd).run e r0).2 = r1 by show (KeygenRound1Exec e rnd r0 key).2 = r1; rw [h1]] at this
  have hrq := reach_runOps ops1 hr1
  have hr2 : Reach e r2 := by
    have := Reach.step (Op.exec2 key) hrq
    rwa [show ((Op.exec2 key).run e (runOps e ops1 r1)).2 = r2 by show (KeygenRound2Exec _ key).2 = r2; rw [h2]] at this
  obtain ⟨p0, p1, b0, b1, b2⟩ := withParty_ok h1
  have i0 := reach_inv e hr key p0 b0
  obtain ⟨x, X, A, hX, hA, j1, j2, j3, j4⟩ := r1Exec_ok b1 (by rw [i0.lpub]; exact i0.idx)
  obtain ⟨q', c1, k1⟩ := runOps_keeps e key (by omega) ops1 r1 p1 b2 a1
  rw [hq] at c1; cases c1
  obtain ⟨q', q2, d1, d2, d3⟩ := withParty_ok h2
  rw [hq] at d1; cases d1
  have iq := reach_inv e hrq key q hq
  have k2 : Keeps 1 q q2 := by have := r2Exec_keeps q; rwa [d2] at this
  have k12 := k1.trans k2
  obtain ⟨g1, g2, g3, g4, g5, g6⟩ := completes_spec hr2 d3 hc
  have hidx : p.index = p0.index := by rw [g1, k12.idx, j1]
  have hids : p.ids = p0.ids := by rw [g2, k12.ids, j2]
  have hX' : X = L.pt (x • L.base) := by
    have := L.scalarBaseMult_pt x
    rw [hX] at this
    exact Option.some.inj this
  obtain ⟨n1, n2⟩ := hpos (x • L.base)
  refine ⟨by rw [hidx, hids]; exact i0.idx, by rw [g3, g2], ?_, ?_, g6⟩
  · have e1 : intBytes X.x = natBE X.x.toNat := by
      unfold intBytes; congr 1; subst hX'; have : 0 ≤ (L.pt (x • L.base)).x := n1; omega
    have e2 : intBytes X.y = natBE X.y.toNat := by
      unfold intBytes; congr 1; subst hX'; have : 0 ≤ (L.pt (x • L.base)).y := n2; omega
    have hown : p.save.pubXj.getD p.index none = some X := by
      rw [hidx, ← j1, ← k12.idx, g4, k12.idx, k12.own, j1, j3]
    refine ⟨rnd.srid, intBytes A.x, intBytes A.y, rnd.u, X.x.toNat, X.y.toNat, ?_, ?_, ?_⟩
    · rw [hown]
      subst hX'
      have e1 : ((L.pt (x • L.base)).x.toNat : Int) = (L.pt (x • L.base)).x := Int.toNat_of_nonneg n1
      have e2 : ((L.pt (x • L.base)).y.toNat : Int) = (L.pt (x • L.base)).y := Int.toNat_of_nonneg n2
      rw [e1, e2]
    · unfold spec.parts
      rw [if_pos rfl, hown, hA]
      simp only [e1, e2]
    · rw [j4, hidx]
      unfold commitHash Common.SHA512_256
      rw [e1, e2]
      rfl
  · intro j hj hji
    have hji0 := hji
    rw [g2] at hj
    rw [g1] at hji
    obtain ⟨ss, sr, ax, ay, u, xx, xy, f1, f0, f2⟩ := g5 j hj hji
    refine ⟨ss, sr, ax, ay, u, xx, xy, f1, by unfold spec.parts; rw [if_neg hji0]; exact f0, ?_⟩
    obtain ⟨c, m1, m2⟩ := C18_round2_records q q2 w2 d2 j (by rw [iq.lm1, ← k2.ids]; exact hj) (by rw [iq.lV, iq.lm1])
    rw [← hM, m1, f2, m2]

/-- C80. Agreement. Two parties with different indices have run their four rounds with success – each in its own process
and with any calls in between. If each was given the other's round-1 message, and both were given the same round-1
messages of all the others, then they hold the same public share of every party and the same group key – or they know some
party by different parts that have the same commitment hash. Nothing is assumed about the other parties or about the
messages of rounds 2 and 3. -/
theorem C80_agreement {G : Type} [AddCommGroup G] {e : Env} (L : Lawful e.c G)
    (hpos : ∀ g, 0 ≤ (L.coords g).1 ∧ 0 ≤ (L.coords g).2) {ka kb wa wb : Bytes} {ra rb : Rand1} {Ma Mb Na Nb : List Bytes} {p q : Party}
    (ha : spec.Ran e ka wa ra Ma Na p) (hb : spec.Ran e kb wb rb Mb Nb q) (hn : p.ids.length = q.ids.length) (hne : p.index ≠ q.index)
    (hla : wa.length < 2 ^ 64) (hlb : wb.length < 2 ^ 64)
    (hab : Mb.getD p.index [] = wa) (hba : Ma.getD q.index [] = wb)
    (hsame : ∀ j, j < p.ids.length → j ≠ p.index → j ≠ q.index → Ma.getD j [] = Mb.getD j []) :
    (p.save.pubXj = q.save.pubXj ∧ p.save.eddsaPub = q.save.eddsaPub) ∨
    ∃ j, j < p.ids.length ∧ spec.parts e ra Na p j ≠ spec.parts e rb Nb q j ∧
      e.H (Common.frame (spec.parts e ra Na p j)) = e.H (Common.frame (spec.parts e rb Nb q j)) := by
  obtain ⟨ia, la, ⟨s1, u1, v1, y1, xa, ya, oa, za, wa'⟩, pa, ka⟩ := ran_spec L hpos ha
  obtain ⟨ib, lb, ⟨s2, u2, v2, y2, xb, yb, ob, zb, wb'⟩, pb, kb⟩ := ran_spec L hpos hb
  by_cases hc : ∃ j, j < p.ids.length ∧ spec.parts e ra Na p j ≠ spec.parts e rb Nb q j ∧
      e.H (Common.frame (spec.parts e ra Na p j)) = e.H (Common.frame (spec.parts e rb Nb q j))
  · exact .inr hc
  left
  have inj : ∀ j, j < p.ids.length →
      e.H (Common.frame (spec.parts e ra Na p j)) = e.H (Common.frame (spec.parts e rb Nb q j)) →
      spec.parts e ra Na p j = spec.parts e rb Nb q j := by
    intro j hj h
    by_contra hne
    exact hc ⟨j, hj, hne, h⟩
  have hpub : p.save.pubXj = q.save.pubXj := by
    refine list_eq_of_getD (by rw [la, lb, hn]) fun j hj => ?_
    rw [la] at hj
    by_cases hja : j = p.index
    · subst hja
      obtain ⟨ss, sr, ax, ay, u, xx, xy, f1, f0, f2⟩ := pb p.index (by omega) hne
      rw [hab, wa', parse_kg1 (by rw [← wa']; exact hla)] at f2
      have := inj _ hj (by rw [za, f0]; exact Content.kg1.inj (Option.some.inj f2))
      rw [za, f0] at this
      simp only [List.cons.injEq, and_true, true_and] at this
      rw [oa, f1, natBE_injective this.2.2.1, natBE_injective this.2.2.2.1]
    · by_cases hjb : j = q.index
      · subst hjb
        obtain ⟨ss, sr, ax, ay, u, xx, xy, f1, f0, f2⟩ := pa q.index (by omega) (Ne.symm hne)
        rw [hba, wb', parse_kg1 (by rw [← wb']; exact hlb)] at f2
        have := inj _ hj (by rw [zb, f0]; exact (Content.kg1.inj (Option.some.inj f2)).symm)
        rw [zb, f0] at this
        simp only [List.cons.injEq, and_true, true_and] at this
        rw [ob, f1, natBE_injective this.2.2.1, natBE_injective this.2.2.2.1]
      · obtain ⟨ss, sr, ax, ay, u, xx, xy, f1, f0, f2⟩ := pa j hj hja
        obtain ⟨ss', sr', ax', ay', u', xx', xy', f1', f0', f2'⟩ := pb j (by omega) hjb
        rw [hsame j hj hja hjb, f2'] at f2
        have := inj _ hj (by rw [f0, f0']; exact (Content.kg1.inj (Option.some.inj f2)).symm)
        rw [f0, f0'] at this
        simp only [List.cons.injEq, and_true, true_and] at this
        rw [f1, f1', natBE_injective this.2.2.1, natBE_injective this.2.2.2.1]
  exact ⟨hpub, key_eq hpub ka kb⟩

end Tss.Keygen
