import Verif.Props.RetryKeygen
import Verif.Props.KeygenHonest
import Mathlib.Data.ZMod.Basic
import Mathlib.Algebra.Field.ZMod
/-! C117: what a second answer of round 3 of key generation costs: the root key. -/
namespace Tss.Keygen
open Tss Text Wire

namespace spec

/-- The number in a round-3 message. -/
def answer (msg : Bytes) : Option Nat :=
  match parseWireMsg msg with
  | some (.kg3 z _ _) => some (beNat z)
  | _ => none

/-- The challenge of party `i` for the session randomness `srid`, computed from the party's round-2 message. -/
def challengeOf (e : Env) (i : Nat) (srid msg2 : Bytes) : Int :=
  match parseWireMsg msg2 with
  | some (.kg2 ssid _ xx xy ax ay _ _ _ _) =>
    (Common.SHA512_256i_TAGGED e.H (ssid ++ srid) [some (i : Int), some (beNat xx : Int), some (beNat xy : Int),
      some (beNat ax : Int), some (beNat ay : Int)]).getD 0 % e.c.N
  | _ => 0

/-- What anybody computes from two answers to two challenges: (z1 - z2) / (c1 - c2) modulo the group order. -/
noncomputable def solve (q : Nat) (hq : q.Prime) (z1 z2 : Nat) (c1 c2 : Int) : Nat :=
  have : Fact q.Prime := ⟨hq⟩
  (((z1 : ZMod q) - z2) / ((c1 : ZMod q) - c2)).val

end spec

theorem solve_eq {q : Nat} (hq : q.Prime) {tau x c1 c2 : Int} (h1 : 0 ≤ c1 ∧ c1 < q) (h2 : 0 ≤ c2 ∧ c2 < q) (h : c1 ≠ c2) :
    (spec.solve q hq (Schnorr.Prove q tau c1 x).toNat (Schnorr.Prove q tau c2 x).toNat c1 c2 : Int) = x % q := by
  have : Fact q.Prime := ⟨hq⟩
  have hq0 : (0 : Int) < q := by exact_mod_cast hq.pos
  have hne : ((c1 : ZMod q) - c2) ≠ 0 := by
    rw [sub_ne_zero, Ne, ZMod.intCast_eq_intCast_iff', Int.emod_eq_of_lt h1.1 h1.2, Int.emod_eq_of_lt h2.1 h2.2]
    exact h
  have hz : ∀ c : Int, (((Schnorr.Prove q tau c x).toNat : Nat) : ZMod q) = (tau : ZMod q) + c * x := by
    intro c
    have h0 : (0 : Int) ≤ Schnorr.Prove q tau c x := Int.emod_nonneg _ hq0.ne'
    have h3 : (((Schnorr.Prove q tau c x).toNat : Nat) : ZMod q) = ((((Schnorr.Prove q tau c x).toNat : Nat) : Int) : ZMod q) := by
      push_cast; rfl
    rw [h3, Int.toNat_of_nonneg h0]
    unfold Schnorr.Prove
    rw [ZMod.intCast_mod]
    push_cast
    ring
  unfold spec.solve
  have : ((((Schnorr.Prove q tau c1 x).toNat : Nat) : ZMod q) - (((Schnorr.Prove q tau c2 x).toNat : Nat) : ZMod q)) /
      ((c1 : ZMod q) - c2) = (x : ZMod q) := by
    rw [div_eq_iff hne, hz, hz]
    ring
  simp only [this, ZMod.val_intCast]

theorem challenge_range {e : Env} (hN : 0 < e.c.N) (ssid srid : Bytes) (j : Nat) (X A : ECPoint) :
    0 ≤ challenge e ssid srid j X A ∧ challenge e ssid srid j X A < e.c.N :=
  ⟨Int.emod_nonneg _ hN.ne', Int.emod_lt_of_pos _ hN⟩

/-- C03: the challenge that rounds 3 and 4 put into a Schnorr proof is the residue of the tagged hash by RejectionSample, hence a reduced
scalar. -/
theorem C03_keygen_challenge {e : Env} (hN : 0 < e.c.N) (ssid srid : Bytes) (j : Nat) (X A : ECPoint) :
    0 ≤ challenge e ssid srid j X A ∧ challenge e ssid srid j X A < e.c.N ∧
    Common.RejectionSample e.c.N ((Common.SHA512_256i_TAGGED e.H (ssid ++ srid)
      [some (j : Int), some X.x, some X.y, some A.x, some A.y]).getD 0) = .ok (challenge e ssid srid j X A) := by
  refine ⟨(challenge_range hN ssid srid j X A).1, (challenge_range hN ssid srid j X A).2, ?_⟩
  unfold Common.RejectionSample challenge
  exact if_neg hN.ne'

/-- the number in an honest answer -/
theorem answer_wire {z : Int} (h0 : 0 ≤ z) (h : z < 256 ^ 32) :
    spec.answer (wireBytes (.kg3 (intBytes z) [] [])) = some z.toNat := by
  have lr : (intBytes z).length ≤ 32 := intBytes_len h0 h
  have hp : parseWireMsg (wireBytes (.kg3 (intBytes z) [] [])) = some (.kg3 (intBytes z) [] []) := by
    apply parse_wireBytes
    · simp only [Content.parts, List.mem_cons, List.not_mem_nil, or_false]
      rintro b (rfl | rfl) <;> first | omega | simp
    · refine lt_of_le_of_lt (marshal_len _) ?_
      have h1 := sing_len 1 (intBytes z)
      have h3 : sing 3 [] = [] := rfl
      simp only [Content.fields, List.map_append, List.sum_append, h3, List.map_nil, List.sum_nil]
      omega
  unfold spec.answer
  rw [hp]
  simp only [beNat_intBytes, Option.some.injEq]
  omega

/-! ### what a party keeps until it runs round 1 again -/

/-- `q` has the same root key, commitment and place as `p`. -/
def SameTau (p q : Party) : Prop :=
  q.tau = p.tau ∧ q.commitedA = p.commitedA ∧ q.ssid = p.ssid ∧ q.index = p.index ∧ q.save.privXi = p.save.privXi ∧
    q.save.pubXj.getD p.index none = p.save.pubXj.getD p.index none

theorem SameTau.rfl {p : Party} : SameTau p p := ⟨.refl _, .refl _, .refl _, .refl _, .refl _, .refl _⟩

theorem SameTau.trans {p q s : Party} (h : SameTau p q) (g : SameTau q s) : SameTau p s := by
  obtain ⟨a1, a2, a3, a4, a5, a6⟩ := h
  obtain ⟨b1, b2, b3, b4, b5, b6⟩ := g
  exact ⟨b1.trans a1, b2.trans a2, b3.trans a3, b4.trans a4, b5.trans a5, by rw [a4] at b6; exact b6.trans a6⟩

theorem forJ_sameTau {step : Party → Nat → Res Err Unit × Party} (h : ∀ p j, SameTau p (step p j).2) (l : List Nat) (p : Party) :
    SameTau p (forJ step l p).2 := forJ_inv (fun q => SameTau p q) (fun s j hs => hs.trans (h s j)) l p .rfl

theorem r2Step_sameTau (p : Party) (j : Nat) : SameTau p (r2Step p j).2 := by
  unfold r2Step
  split <;> exact ⟨.refl _, .refl _, .refl _, .refl _, .refl _, .refl _⟩

theorem r3Step_sameTau (e : Env) (p : Party) (j : Nat) : SameTau p (r3Step e p j).2 := by
  unfold r3Step
  split
  · exact .rfl
  · next hj =>
    have hset : ∀ v, (p.save.pubXj.set j v).getD p.index none = p.save.pubXj.getD p.index none := fun v => by
      rw [getD_set, if_neg (by rintro ⟨hh, -⟩; exact hj hh)]
    split
    · exact .rfl
    · split
      · exact ⟨.refl _, .refl _, .refl _, .refl _, .refl _, .refl _⟩
      · simp only
        split
        · exact ⟨.refl _, .refl _, .refl _, .refl _, .refl _, hset _⟩
        · split
          · exact ⟨.refl _, .refl _, .refl _, .refl _, .refl _, hset _⟩
          · split <;> exact ⟨.refl _, .refl _, .refl _, .refl _, .refl _, hset _⟩
    · exact .rfl

theorem r2Exec_sameTau (p : Party) : SameTau p (r2Exec p).2 := by
  have h0 : SameTau p (resetOK { p with number := 2 }) := ⟨.refl _, .refl _, .refl _, .refl _, .refl _, .refl _⟩
  unfold r2Exec
  simp only
  generalize resetOK { p with number := 2 } = q at h0 ⊢
  have h1 := h0.trans (forJ_sameTau r2Step_sameTau (List.range q.m1.length) q)
  split
  · next heq =>
    rw [heq] at h1
    split
    · exact h1.trans ⟨.refl _, .refl _, .refl _, .refl _, .refl _, .refl _⟩
    · exact h1
  · next heq => rw [heq] at h1; exact h1
  · next heq => rw [heq] at h1; exact h1

theorem r3Exec_sameTau (e : Env) (p : Party) : SameTau p (r3Exec e p).2 := by
  have h0 : SameTau p (resetOK { p with number := 3 }) := ⟨.refl _, .refl _, .refl _, .refl _, .refl _, .refl _⟩
  unfold r3Exec
  simp only
  generalize resetOK { p with number := 3 } = q at h0 ⊢
  have h1 := h0.trans (forJ_sameTau (r3Step_sameTau e) (List.range q.m2.length) q)
  split
  · next heq =>
    rw [heq] at h1
    split
    · exact h1.trans ⟨.refl _, .refl _, .refl _, .refl _, .refl _, .refl _⟩
    · exact h1
  · next heq => rw [heq] at h1; exact h1
  · next heq => rw [heq] at h1; exact h1

theorem r4Exec_sameTau (e : Env) (p : Party) : SameTau p (r4Exec e p).2 := by
  have h0 : SameTau p (resetOK { p with number := 4 }) := ⟨.refl _, .refl _, .refl _, .refl _, .refl _, .refl _⟩
  unfold r4Exec
  simp only
  generalize resetOK { p with number := 4 } = q at h0 ⊢
  have h1 := h0.trans (forJ_sameTau (step := r4Step e) (fun s j => by rw [r4Step_same]; exact .rfl) (List.range q.m3.length) q)
  split
  · next heq =>
    rw [heq] at h1
    split
    · split
      · split <;> exact h1.trans ⟨.refl _, .refl _, .refl _, .refl _, .refl _, .refl _⟩
      · exact h1
      · exact h1
    · exact h1
  · next heq => rw [heq] at h1; exact h1
  · next heq => rw [heq] at h1; exact h1

theorem with_sameTau {α : Type} (r : Reg) (key : Bytes) (f : Party → Res Err α × Party) (p : Party) (h : r key = some p)
    (hf : SameTau p (f p).2) : ∃ q, (withParty r key f).2 key = some q ∧ SameTau p q := by
  simp only [withParty, h, Reg.set, if_pos]
  exact ⟨_, _root_.rfl, hf⟩

theorem accept_sameTau (rd : Round) (r : Reg) (key : Bytes) (frm : Int) (msg : Bytes) (p : Party) (h : r key = some p) :
    ∃ q, (rd.accept r key frm msg).2 key = some q ∧ SameTau p q := by
  cases rd <;> (
    simp only [Round.accept, KeygenRound1Accept, KeygenRound2Accept, KeygenRound3Accept, withParty, h, Reg.set, if_pos]
    refine ⟨_, _root_.rfl, ?_⟩
    unfold accept
    split
    · exact .rfl
    · simp only
      split
      · split
        · exact ⟨.refl _, .refl _, .refl _, .refl _, .refl _, .refl _⟩
        · split <;> exact ⟨.refl _, .refl _, .refl _, .refl _, .refl _, .refl _⟩
      · exact .rfl)

theorem run_sameTau (e : Env) (op : Op) (r : Reg) (key : Bytes) (p : Party) (h : r key = some p) (hk : op.key = key → 1 < spec.round op) :
    ∃ q, (op.run e r).2 key = some q ∧ SameTau p q := by
  by_cases hop : op.key = key
  · have hk := hk hop
    cases op with
    | new k i n ids root => simp [spec.round] at hk
    | remove k => simp [spec.round] at hk
    | exec1 k rnd => simp [spec.round] at hk
    | saveChain k c =>
      cases hop
      refine with_sameTau r _ _ p h ?_
      simp only
      split
      · exact .rfl
      · split <;> exact ⟨.refl _, .refl _, .refl _, .refl _, .refl _, .refl _⟩
    | exec2 k => cases hop; exact with_sameTau r _ _ p h (r2Exec_sameTau p)
    | exec3 k => cases hop; exact with_sameTau r _ _ p h (r3Exec_sameTau e p)
    | exec4 k => cases hop; exact with_sameTau r _ _ p h (r4Exec_sameTau e p)
    | acc rd k f m => cases hop; exact accept_sameTau rd r _ f m p h
    | fin rd k => cases hop; cases rd <;> exact with_sameTau r _ _ p h .rfl
  · exact ⟨p, (run_elsewhere e op r key hop).trans h, .rfl⟩

theorem runOps_sameTau (e : Env) (key : Bytes) : ∀ (ops : List Op) (r : Reg) (p : Party), r key = some p → spec.After 1 key ops →
    ∃ q, runOps e ops r key = some q ∧ SameTau p q
  | [], _, p, h, _ => ⟨p, h, .rfl⟩
  | op :: t, r, p, h, hk => by
    obtain ⟨q, q1, q2⟩ := run_sameTau e op r key p h (hk op (by simp))
    obtain ⟨q', q3, q4⟩ := runOps_sameTau e key t _ q q1 fun o ho => hk o (by simp [ho])
    exact ⟨q', q3, q2.trans q4⟩

/-! ### two answers -/

/-- one answer of round 3, as a call -/
theorem round3_call {e : Env} {r r' : Reg} {key out : Bytes} {p : Party} (hp : r key = some p)
    (h : KeygenRound3Exec e r key = (.ok out, r')) : ∃ p' X A tau x, r' key = some p' ∧ SameTau p p' ∧
      p.save.pubXj.getD p.index none = some X ∧ p.commitedA = some A ∧ p.tau = some tau ∧ p.save.privXi = some x ∧
      out = wireBytes (.kg3 (intBytes (Schnorr.Prove e.c.N tau (challenge e p.ssid p'.srid p.index X A) x)) [] []) := by
  unfold KeygenRound3Exec at h
  rw [withParty_some _ hp] at h
  simp only [Prod.mk.injEq] at h
  have h3 : r3Exec e p = (.ok out, (r3Exec e p).2) := Prod.ext h.1 rfl
  obtain ⟨-, X, A, tau, x, a1, a2, a3, a4, a5⟩ := C19_single_run e p _ out h3
  have hs := r3Exec_sameTau e p
  exact ⟨_, X, A, tau, x, by rw [← h.2]; simp, hs, by rw [← hs.2.2.2.2.2]; exact a1, a2, a3, a4, a5⟩

/-- C117. Two answers of a party to round 3 - whatever was handed in before, between and by whom, as long as the party
did not begin again with round 1 - determine its root key (its residue, which is all that matters), unless the
two challenges, which are computed from published data, are equal. -/
theorem C117_two_answers_reveal_root (e : Env) {q : Nat} (hq : q.Prime) (hN : e.c.N = q) (h32 : e.c.N ≤ 256 ^ 32) (r r1 r2 : Reg)
    (key out1 out2 : Bytes) (p : Party) (hp : r key = some p) (h1 : KeygenRound3Exec e r key = (.ok out1, r1)) (ops : List Op)
    (hops : spec.After 1 key ops) (h2 : KeygenRound3Exec e (runOps e ops r1) key = (.ok out2, r2)) :
    ∃ (X A : ECPoint) (x : Int) (p1 p2 : Party) (z1 z2 : Nat), p.save.privXi = some x ∧
      p.save.pubXj.getD p.index none = some X ∧ p.commitedA = some A ∧ r1 key = some p1 ∧ r2 key = some p2 ∧
      spec.answer out1 = some z1 ∧ spec.answer out2 = some z2 ∧
      (challenge e p.ssid p1.srid p.index X A ≠ challenge e p.ssid p2.srid p.index X A →
        (spec.solve q hq z1 z2 (challenge e p.ssid p1.srid p.index X A) (challenge e p.ssid p2.srid p.index X A) : Int) = x % q) := by
  obtain ⟨p1, X, A, tau, x, a1, a2, a3, a4, a5, a6, a7⟩ := round3_call hp h1
  obtain ⟨q1, b1, b2⟩ := runOps_sameTau e key ops r1 p1 a1 hops
  obtain ⟨c1, c2, c3, c4, c5, c6⟩ := a2.trans b2
  obtain ⟨p2, X', A', tau', x', d1, d2, d3, d4, d5, d6, d7⟩ := round3_call b1 h2
  rw [c4, c6, a3] at d3
  rw [c2, a4] at d4
  rw [c1, a5] at d5
  rw [c5, a6] at d6
  cases d3; cases d4; cases d5; cases d6
  rw [c3, c4] at d7
  have hN0 : 0 < e.c.N := by rw [hN]; exact_mod_cast hq.pos
  have hr : ∀ c, 0 ≤ Schnorr.Prove e.c.N tau c x ∧ Schnorr.Prove e.c.N tau c x < 256 ^ 32 := fun c =>
    ⟨Int.emod_nonneg _ hN0.ne', lt_of_lt_of_le (Int.emod_lt_of_pos _ hN0) h32⟩
  refine ⟨X, A, x, p1, p2, _, _, a6, a3, a4, a1, d1, by rw [a7]; exact answer_wire (hr _).1 (hr _).2,
    by rw [d7]; exact answer_wire (hr _).1 (hr _).2, fun hne => ?_⟩
  have r1 := challenge_range hN0 p.ssid p1.srid p.index X A
  have r2 := challenge_range hN0 p.ssid p2.srid p.index X A
  rw [hN] at r1 r2 ⊢
  exact solve_eq hq r1 r2 hne

/-! ### calling round 3 again and again -/

theorem ext_getD {α : Type} {a b : List (Option α)} (hl : a.length = b.length) (h : ∀ k, a.getD k none = b.getD k none) : a = b := by
  apply List.ext_getElem?
  intro k
  by_cases hk : k < b.length
  · have := h k
    rw [List.getD_eq_getElem?_getD, List.getD_eq_getElem?_getD, List.getElem?_eq_getElem hk, List.getElem?_eq_getElem (by omega)] at this
    rw [List.getElem?_eq_getElem hk, List.getElem?_eq_getElem (by omega)]
    simpa using this
  · rw [List.getElem?_eq_none (by omega), List.getElem?_eq_none (by omega)]

/-- what a further call of round 3 on the same messages does -/
theorem r3Exec_again {e : Env} {p p1 : Party} {out : Bytes} (h : r3Exec e p = (.ok out, p1)) (srid : Bytes) (m3 : List Bytes) :
    ∃ out2, r3Exec e { p1 with
        srid := srid
        m3 := m3 } = (.ok out2, { p1 with
        srid := xorBytes srid (xorAll (peerSrids e.c p))
        m3 := m3.set p.index out2 }) ∧
      (xorBytes srid (xorAll (peerSrids e.c p)) = p1.srid → out2 = out) := by
  obtain ⟨hacc, pay, pub, X, A, tau, x, a1, a2, a3, a4, a5, a6, a7, a8, a9, hp⟩ := r3Exec_ok h
  have hacc2 : ∀ j, j < p.m2.length → j ≠ p.index → ∃ o, Accepts e { p1 with
        srid := srid
        m3 := m3 } j o := fun j hj hji => by
    obtain ⟨o, ho⟩ := hacc j hj hji
    refine ⟨o, ?_⟩
    unfold Accepts at ho ⊢
    rw [hp]
    exact ho
  obtain ⟨p3, c1, c2⟩ := r3Exec_succeeds (e := e) (q := { p1 with
        srid := srid
        m3 := m3 }) (X := X) (A := A) (tau := tau) (x := x)
    (by rw [hp] at hacc2 ⊢; exact hacc2) (by rw [hp]; exact a1) (by rw [hp]; exact a2) (by rw [hp]; exact a3) (by rw [hp]; exact a4)
  have hps : peerSrids e.c { p1 with
        srid := srid
        m3 := m3 } = peerSrids e.c p := by rw [hp]; rfl
  rw [hps] at c1
  obtain ⟨out2, c3, c4⟩ : ∃ out2, r3Exec e { p1 with
        srid := srid
        m3 := m3 } = (.ok out2, p3) ∧ (p3.srid = p1.srid → out2 = out) :=
    ⟨_, c2, fun hs => by rw [hs, a9, hp]⟩
  clear c2
  obtain ⟨-, pay3, pub3, X3, A3, tau3, x3, d1, d2, d3, d4, d5, d6, d7, d8, d9, hp3⟩ := r3Exec_ok c3
  refine ⟨out2, c3.trans (congrArg (Prod.mk _) ?_), fun hs => c4 (c1.trans hs)⟩
  · have e3 : pay3 = pay := by
      refine ext_getD (d5.trans (by rw [hp])) fun k => ?_
      rw [d7 k]
      split
      · next hc =>
        rw [hp] at hc ⊢
        rw [a7 k, if_pos ⟨hc.1, hc.2.1, by rw [← a5]; exact hc.2.2⟩]
      · rw [hp]
    have e4 : pub3 = pub := by
      refine ext_getD (d6.trans (by rw [hp])) fun k => ?_
      rw [d8 k]
      split
      · next hc =>
        rw [hp] at hc ⊢
        rw [a8 k, if_pos ⟨hc.1, hc.2.1, by rw [← a6]; exact hc.2.2⟩]
      · rw [hp]
    rw [hp3] at c1 ⊢
    simp only at c1
    rw [c1, e3, e4]
    rw [hp]
    simp

/-- C117. Round 3 called again with nothing handed in between succeeds, and a third call gives the first answer again
and restores the party: the calls alternate between the common randomness and the party's own. -/
theorem C117_alternates (e : Env) (p p' : Party) (out : Bytes) (h : r3Exec e p = (.ok out, p'))
    (hl : ∀ b ∈ peerSrids e.c p, b.length ≤ p.srid.length) :
    ∃ out2 p2, r3Exec e p' = (.ok out2, p2) ∧ p2.srid = p.srid ∧ r3Exec e p2 = (.ok out, p') := by
  have hs : p'.srid = xorBytes p.srid (xorAll (peerSrids e.c p)) := (C19_single_run e p p' out h).1
  obtain ⟨out2, a1, -⟩ := r3Exec_again h p'.srid p'.m3
  obtain ⟨out3, b1, b2⟩ := r3Exec_again h p.srid (p'.m3.set p.index out2)
  have hc : xorBytes p'.srid (xorAll (peerSrids e.c p)) = p.srid := by
    rw [hs]; exact xorBytes_cancel _ _ (xorAll_length_le _ _ hl)
  rw [hc] at a1
  have h3 := b2 hs.symm
  subst h3
  refine ⟨out2, _, a1, rfl, b1.trans (congrArg (Prod.mk _) ?_)⟩
  obtain ⟨-, pay, pub, X, A, tau, x, -, -, -, -, -, -, -, -, -, hp⟩ := r3Exec_ok h
  rw [← hs]
  rw [hp]
  simp

/-! ### the other rounds may be repeated -/

theorem withParty_twice {α : Type} {r r' : Reg} {key : Bytes} {f : Party → Res Err α × Party} {out : α}
    (hf : ∀ p p', f p = (.ok out, p') → f p' = (.ok out, p')) (h : withParty r key f = (.ok out, r')) :
    withParty r' key f = (.ok out, r') := by
  cases hp : r key with
  | none => rw [withParty_none _ hp] at h; simp at h
  | some p =>
    rw [withParty_some _ hp] at h
    simp only [Prod.mk.injEq] at h
    have h1 := hf p (f p).2 (Prod.ext h.1 rfl)
    have h2 : r' key = some (f p).2 := by rw [← h.2]; simp
    rw [withParty_some _ h2, h1]
    refine congrArg (Prod.mk _) ?_
    funext k
    by_cases hk : k = key
    · subst hk; simp [h2]
    · simp [Reg.set, hk]

theorem ext_getDB {a b : List Bytes} (hl : a.length = b.length) (h : ∀ k, a.getD k [] = b.getD k []) : a = b := by
  apply List.ext_getElem?
  intro k
  by_cases hk : k < b.length
  · have := h k
    rw [List.getD_eq_getElem?_getD, List.getD_eq_getElem?_getD, List.getElem?_eq_getElem hk, List.getElem?_eq_getElem (by omega)] at this
    rw [List.getElem?_eq_getElem hk, List.getElem?_eq_getElem (by omega)]
    simpa using this
  · rw [List.getElem?_eq_none (by omega), List.getElem?_eq_none (by omega)]

theorem r2Exec_twice (p p' : Party) (out : Bytes) (h : r2Exec p = (.ok out, p')) : r2Exec p' = (.ok out, p') := by
  obtain ⟨V, g1, g2, g3⟩ := r2fold (List.range p.m1.length) (resetOK { p with number := 2 })
  unfold r2Exec at h
  simp only at h
  rw [show (resetOK { p with number := 2 }).m1.length = p.m1.length from rfl] at h
  cases hr : forJ r2Step (List.range p.m1.length) (resetOK { p with number := 2 }) with
  | mk o s1 =>
    rw [hr] at h
    cases o with
    | err er => simp at h
    | panic => simp at h
    | ok u =>
      obtain ⟨h1, h2⟩ := (r2Loop_ok_iff _ _ _).mp hr
      rw [g1] at h2
      subst h2
      simp only at h
      have h3 : ∃ X A, p.save.pubXj.getD p.index none = some X ∧ p.commitedA = some A := by
        cases hX : p.save.pubXj.getD p.index none with
        | none => simp only [resetOK, hX] at h; simp at h
        | some X =>
          cases hA : p.commitedA with
          | none => simp only [resetOK, hX, hA] at h; simp at h
          | some A => exact ⟨X, A, rfl, rfl⟩
      obtain ⟨X, A, hX, hA⟩ := h3
      simp only [resetOK, hX, hA, Prod.mk.injEq, Res.ok.injEq] at h
      obtain ⟨ho, hp'⟩ := h
      obtain ⟨V2, f1, f2, f3⟩ := r2fold (List.range p'.m1.length) (resetOK { p' with number := 2 })
      have hm : p'.m1 = p.m1 := by rw [← hp']
      have hV : p'.V = V := by rw [← hp']
      have e1 : V2 = V := by
        refine ext_getDB (f2.trans (by show p'.V.length = _; rw [hV])) fun k => ?_
        have f3' : V2.getD k [] = if k ∈ List.range p'.m1.length ∧ k < p'.V.length then
            (match parseWireMsg (p'.m1.getD k []) with | some (.kg1 c) => c | _ => p'.V.getD k []) else p'.V.getD k [] := f3 k
        rw [hV, hm] at f3'
        by_cases hc : k ∈ List.range p.m1.length ∧ k < V.length
        · obtain ⟨c, hcc⟩ := h1 k hc.1
          have hcc' : parseWireMsg (p.m1.getD k []) = some (.kg1 c) := hcc
          have g3' : V.getD k [] = if k ∈ List.range p.m1.length ∧ k < p.V.length then
            (match parseWireMsg (p.m1.getD k []) with | some (.kg1 c) => c | _ => p.V.getD k []) else p.V.getD k [] := g3 k
          have hlen : k < p.V.length := by
            have : V.length = p.V.length := g2
            omega
          rw [if_pos ⟨hc.1, hlen⟩, hcc'] at g3'
          rw [if_pos hc, hcc'] at f3'
          rw [f3', g3']
        · rw [if_neg hc] at f3'
          exact f3'
      have hl2 : forJ r2Step (List.range p'.m1.length) (resetOK { p' with number := 2 }) =
          (.ok (), { resetOK { p' with number := 2 } with V := V2 }) := by
        rw [r2Loop_ok_iff, ← f1]
        refine ⟨?_, rfl⟩
        intro j hj
        show ∃ c, parseWireMsg (p'.m1.getD j []) = _
        rw [hm] at hj ⊢
        exact h1 j hj
      unfold r2Exec
      simp only
      rw [show (resetOK { p' with number := 2 }).m1.length = p'.m1.length from rfl, hl2, e1, ← hp']
      simp only [resetOK, hX, ho]
      simp

theorem r4Exec_twice (e : Env) (p p' : Party) (out : Bytes) (h : r4Exec e p = (.ok out, p')) : r4Exec e p' = (.ok out, p') := by
  unfold r4Exec at h
  simp only at h
  cases hr : forJ (r4Step e) (List.range (resetOK { p with number := 4 }).m3.length) (resetOK { p with number := 4 }) with
  | mk o s1 =>
    rw [hr] at h
    cases o with
    | err er => simp at h
    | panic => simp at h
    | ok u =>
      obtain ⟨h1, h2⟩ := (r4Loop_ok_iff e _ _ _).mp hr
      subst h2
      have hsave : (resetOK { p with number := 4 }).save = p.save := rfl
      simp only [hsave] at h
      cases hpub : p.save.pubXj with
      | nil => rw [hpub] at h; simp at h
      | cons o t =>
        cases o with
        | none => rw [hpub] at h; simp at h
        | some X0 =>
          rw [hpub] at h
          simp only at h
          cases hsum : sumPub e.c 1 X0 t with
          | err er => rw [hsum] at h; simp at h
          | panic => rw [hsum] at h; simp at h
          | ok s =>
            rw [hsum] at h
            simp only at h
            split at h
            · next b hb =>
              simp only [Prod.mk.injEq, Res.ok.injEq] at h
              obtain ⟨hbo, hp'⟩ := h
              subst hbo
              have hl2 : forJ (r4Step e) (List.range (resetOK { p' with number := 4 }).m3.length) (resetOK { p' with number := 4 }) =
                  (.ok (), resetOK { p' with number := 4 }) := by
                rw [r4Loop_ok_iff]
                refine ⟨?_, rfl⟩
                rw [← hp']
                intro j hj hji
                have h5 := h1 j hj hji
                unfold Proves at h5 ⊢
                simp only [resetOK, hpub] at h5 ⊢
                exact h5
              unfold r4Exec
              simp only
              rw [hl2]
              simp only
              rw [show (resetOK { p' with number := 4 }).save = p'.save from rfl]
              have hx : p'.save.pubXj = some X0 :: t := by rw [← hp']
              rw [hx]
              simp only
              rw [hsum]
              simp only
              have hsv : ({ p'.save with
                  pubXj := some X0 :: t
                  eddsaPub := some s } : SaveData) = { p.save with
                  pubXj := some X0 :: t
                  eddsaPub := some s } := by rw [← hp']
              rw [show e.jsonEnc ({ p'.save with
                  pubXj := some X0 :: t
                  eddsaPub := some s } : SaveData) = some b from by rw [hsv]; exact hb]
              simp only [Prod.mk.injEq, true_and]
              rw [← hp']
              simp [resetOK]
            · simp at h

/-- C117. Unlike round 3, rounds 2 and 4 may be repeated: the call returns the same again and changes nothing more. -/
theorem C117_round2_again (r r' : Reg) (key out : Bytes) (h : KeygenRound2Exec r key = (.ok out, r')) :
    KeygenRound2Exec r' key = (.ok out, r') := withParty_twice (fun p p' => r2Exec_twice p p' out) h

/-- C117. Round 4. -/
theorem C117_round4_again (e : Env) (r r' : Reg) (key out : Bytes) (h : KeygenRound4Exec e r key = (.ok out, r')) :
    KeygenRound4Exec e r' key = (.ok out, r') := withParty_twice (fun p p' => r4Exec_twice e p p' out) h

/-! ### an honest party that is asked again -/

section
variable {G : Type} [AddCommGroup G]

/-- a party that is past a round has got all messages of the round before -/
theorem got_before {e : Env} {S : Session} {s : Net} (hr : Run e S s) : ∀ (rd : Round) (i : Nat), i < S.n → rd.num + 2 ≤ s.stage i →
    ∀ j, j < S.n → j ≠ i → s.got rd i j = true := by
  induction hr with
  | init r => intro rd i _ h; simp at h
  | @step s s' out _ hstep ih =>
    intro rd i hi h j hj hji
    cases hstep with
    | create i' hi' h' q hq =>
      simp only at h ⊢
      split at h
      · cases rd <;> simp [Round.num] at h
      · exact ih rd i hi h j hj hji
    | exec rd' i' hi' h' hr' q hq =>
      simp only at h ⊢
      split at h
      · next hii =>
        subst hii
        rcases Nat.lt_or_ge rd'.num (rd.num + 2) with hlt | hge
        · exact hr' rd (by omega) j hj hji
        · exact ih rd i hi (by omega) j hj hji
      · exact ih rd i hi h j hj hji
    | exec4 i' hi' h' hr' q hq =>
      simp only at h ⊢
      split at h
      · next hii =>
        subst hii
        rcases Nat.lt_or_ge 4 (rd.num + 2) with hlt | hge
        · exact hr' rd (by omega) j hj hji
        · exact ih rd i hi (by omega) j hj hji
      · exact ih rd i hi h j hj hji
    | deliver rd' i' j' hi' hj' h' w hw q hq =>
      simp only at h ⊢
      split
      · rfl
      · exact ih rd i hi h j hj hji
  | @noise s s' _ hn ih =>
    intro rd i hi h j hj hji
    cases hn <;> exact ih rd i hi h j hj hji

theorem challengeOf_cont {e : Env} {L : Lawful e.c G} {S : Session} (hs : Sizes e L S) (i : Nat) (hi : i < S.n) (srid : Bytes) :
    spec.challengeOf e i srid (wireBytes (cont e L S .two i)) = challenge e ssidConst srid i (shareX e L S i) (shareA e L S i) := by
  obtain ⟨x1, x2, x3, x4⟩ := hs.coords (S.x i • L.base)
  obtain ⟨a1, a2, a3, a4⟩ := hs.coords ((S.rnd i).tau • L.base)
  unfold spec.challengeOf
  rw [parse_cont hs .two i hi]
  simp only [cont, shareX, shareA, Lawful.pt, beNat_coord x1, beNat_coord x3, beNat_coord a1, beNat_coord a3]
  rfl

/-- C117. In a run of honest parties over a network that delivers what was sent, let a party that has run round 3 be
asked to run it once more, at any later time, everything else being as it should: the call succeeds, and what it
returns together with what the party sent before - its round-2 message, everybody's contribution to the common
randomness and its first answer - gives its root key to whoever sees it, unless two hash values agree modulo
the group order. -/
theorem C117_asked_again (e : Env) (L : Lawful e.c G) (S : Session) (hg : Good e L S) {q : Nat} (hq : q.Prime) (hN : e.c.N = q)
    (s : Net) (hr : Run e S s) (i : Nat) (hi : i < S.n) (h4 : 4 ≤ s.stage i)
    (hl : ∀ j, j < S.n → (S.rnd j).srid.length ≤ (S.rnd i).srid.length) :
    ∃ msg2 out1 out2 r2 z1 z2, s.sent .two i = some msg2 ∧ s.sent .three i = some out1 ∧
      KeygenRound3Exec e s.reg (S.key i) = (.ok out2, r2) ∧ spec.answer out1 = some z1 ∧ spec.answer out2 = some z2 ∧
      (spec.challengeOf e i (xorAll ((List.range S.n).map fun j => (S.rnd j).srid)) msg2 ≠ spec.challengeOf e i (S.rnd i).srid msg2 →
        (spec.solve q hq z1 z2 (spec.challengeOf e i (xorAll ((List.range S.n).map fun j => (S.rnd j).srid)) msg2)
          (spec.challengeOf e i (S.rnd i).srid msg2) : Int) = S.x i % q) := by
  have hni := run_inv hg hr
  have hs := hg.sizes
  obtain ⟨w2, g2⟩ := Option.isSome_iff_exists.mp ((hni.sent_iff .two i hi).mpr (by simp only [Round.num]; omega))
  obtain ⟨w3, g3⟩ := Option.isSome_iff_exists.mp ((hni.sent_iff .three i hi).mpr (by simp only [Round.num]; omega))
  have e2 := hni.sent _ _ _ hi g2
  have e3 := hni.sent _ _ _ hi g3
  rcases hni.party i hi with h0 | ⟨p, hp, hpi⟩
  · omega
  have hgot := got_before hr .two i hi (by simp only [Round.num]; omega)
  obtain ⟨t1, t2, t3, t4, t5⟩ := hpi.s1 (by omega)
  have l2 : p.m2.length = S.n := hpi.lm .two
  have hm : ∀ j, j < S.n → j ≠ i → opening e.c (p.m2.getD j []) =
      some ⟨shareX e L S j, shareA e L S j, ssidConst, (S.rnd j).srid, (S.rnd j).u⟩ := by
    intro j hj hji
    have : p.m2.getD j [] = wireBytes (cont e L S .two j) := hpi.recv .two j (hgot j hj hji)
    rw [this, opening_cont hs j hj]
  have hacc : ∀ j, j < p.m2.length → j ≠ p.index → ∃ o, Accepts e p j o := by
    intro j hj hji
    rw [l2] at hj
    rw [hpi.index] at hji
    refine ⟨_, hm j hj hji, t1.symm, ?_⟩
    rw [hpi.s2 (by omega) j hj, t1]
    rfl
  obtain ⟨p2, c1, c2⟩ := r3Exec_succeeds (e := e) (q := p) (X := shareX e L S i) (A := shareA e L S i) (tau := (S.rnd i).tau)
    (x := S.x i) hacc (by rw [hpi.index]; exact t5) t3 t2 hpi.priv
  have hps : peerSrids e.c p = ((List.range S.n).filter fun j => j ≠ i).map fun j => (S.rnd j).srid := by
    unfold peerSrids
    rw [l2, hpi.index]
    apply List.map_congr_left
    intro j hj
    simp only [List.mem_filter, List.mem_range, decide_eq_true_eq, ne_eq] at hj
    unfold sridOf
    rw [hm j hj.1 (by simpa using hj.2)]
  have hsr : p2.srid = (S.rnd i).srid := by
    rw [c1, hpi.srid2 (by omega), hps]
    unfold common
    rw [← xor_split (fun j => (S.rnd j).srid) i (List.range S.n) List.nodup_range (List.mem_range.mpr hi)]
    refine xorBytes_cancel _ _ (xorAll_length_le _ _ fun b hb => ?_)
    obtain ⟨j, hj, rfl⟩ := List.mem_map.1 hb
    exact hl j (List.mem_range.1 (List.mem_filter.1 hj).1)
  have hN0 : 0 < e.c.N := L.N_pos
  have hrg : ∀ c, 0 ≤ Schnorr.Prove e.c.N (S.rnd i).tau c (S.x i) ∧ Schnorr.Prove e.c.N (S.rnd i).tau c (S.x i) < 256 ^ 32 := fun c =>
    ⟨Int.emod_nonneg _ hN0.ne', lt_of_lt_of_le (Int.emod_lt_of_pos _ hN0) hs.order⟩
  have hcall : KeygenRound3Exec e s.reg (S.key i) = (.ok (wireBytes (.kg3 (intBytes (Schnorr.Prove e.c.N (S.rnd i).tau
      (challenge e ssidConst (S.rnd i).srid i (shareX e L S i) (shareA e L S i)) (S.x i))) [] [])), s.reg.set (S.key i) (some p2)) := by
    unfold KeygenRound3Exec
    rw [withParty_some _ hp, c2, hsr, t1, hpi.index]
  refine ⟨w2, w3, _, _, _, _, g2, g3, hcall, by rw [e3]; exact answer_wire (hrg _).1 (hrg _).2, answer_wire (hrg _).1 (hrg _).2, ?_⟩
  rw [e2, challengeOf_cont hs i hi, challengeOf_cont hs i hi]
  intro hne
  have r1 := challenge_range hN0 ssidConst (common S) i (shareX e L S i) (shareA e L S i)
  have r2 := challenge_range hN0 ssidConst (S.rnd i).srid i (shareX e L S i) (shareA e L S i)
  unfold resp chal
  unfold common at *
  rw [hN] at r1 r2 ⊢
  exact solve_eq hq r1 r2 hne

end

/-! ### a concrete case -/

/-- the three toy parties of C21 (root keys 7, 10 and 0): when all have finished, one more call of round 3 gives away
party 0's root key, 7 -/
example : ∃ s, Run exEnv exSession s ∧ (∀ i, i < 3 → s.stage i = 5) ∧
    ∃ out1 out2 r2 z1 z2 c1 c2, s.sent .three 0 = some out1 ∧ KeygenRound3Exec exEnv s.reg [0] = (.ok out2, r2) ∧
      spec.answer out1 = some z1 ∧ spec.answer out2 = some z2 ∧
      (spec.solve 11 (by decide) z1 z2 c1 c2 : Int) = 7 := by
  obtain ⟨s, h1, h2⟩ := C21_can_finish exEnv toyLawful exSession exGood _ (Run.init fun _ => none)
  replace h1 := h1.run (Run.init fun _ => none)
  refine ⟨s, h1, h2, ?_⟩
  obtain ⟨msg2, out1, out2, r2, z1, z2, a1, a2, a3, a4, a5, a6⟩ := C117_asked_again exEnv toyLawful exSession exGood (q := 11) (by decide)
    rfl s h1 0 (by decide) (by rw [h2 0 (by decide)]; decide) (by intro j _; simp [exSession])
  refine ⟨out1, out2, r2, z1, z2, _, _, a2, a3, a4, a5, a6 ?_⟩
  have := (run_inv exGood h1).sent .two 0 msg2 (by decide) a1
  rw [this, challengeOf_cont exGood.sizes 0 (by decide), challengeOf_cont exGood.sizes 0 (by decide)]
  decide +kernel

end Tss.Keygen
