import Verif.Props.KeygenHonest
import Verif.Props.KeygenTwice
/-! C118: parties of key generation that lose their state can come back. -/
namespace Tss.Keygen
open Tss Text Wire

/-! ### Specification -/

/-- What happens to a party when somebody loses its state: it is `lost` itself and has to be created again; it keeps its
state and starts `again` with round 1; or it `stays` where its round 1 put it. -/
inductive spec.Fate where
  | lost
  | again
  | stays
  deriving DecidableEq

/-- The session with other root keys and other draws. -/
def Session.redraw (S : Session) (root' : Nat → Bytes) (rnd' : Nat → Rand1) : Session :=
  { S with
    root := root'
    rnd := rnd' }

/-- Some parties have lost their state, `r` is what is left of the registry.  The clients go back: only the round-1 messages
of parties that stay are still in use, all other messages are forgotten. -/
def spec.afterLoss (fate : Nat → spec.Fate) (r : Reg) (s : Net) : Net where
  reg := r
  stage i := match fate i with
    | .lost => 0
    | .again => min (s.stage i) 1
    | .stays => min (s.stage i) 2
  sent rd j := if fate j = .stays ∧ rd = .one then s.sent rd j else none
  got rd i j := if fate i ≠ .lost ∧ fate j = .stays ∧ rd = .one then s.got rd i j else false
  final := s.final

variable {G : Type} [AddCommGroup G]

/-- Runs of honest parties in which, any number of times, parties lose their state before anybody has made its last call.
A party that has run round 3 does not stay: it starts again with round 1.  Lost parties may come back with another root key;
whoever runs round 1 again draws anew. -/
inductive RunLoss (e : Env) (L : Lawful e.c G) : Session → Net → Prop where
  | init (S : Session) (r : Reg) (hg : Good e L S) :
      RunLoss e L S ⟨r, fun _ => 0, fun _ _ => none, fun _ _ _ => false, fun _ => none⟩
  | step {S : Session} {s s' : Net} {out : Res Err Bytes} : RunLoss e L S s → Step e S s out s' → RunLoss e L S s'
  | noise {S : Session} {s s' : Net} : RunLoss e L S s → Noise e S s s' → RunLoss e L S s'
  | loss {S : Session} {s : Net} (fate : Nat → spec.Fate) (r : Reg) (root' : Nat → Bytes) (rnd' : Nat → Rand1) :
      RunLoss e L S s → (∀ i, i < S.n → s.stage i ≤ 4) → (∀ i, i < S.n → fate i = .stays → s.stage i ≤ 3) →
      (∀ i, i < S.n → fate i ≠ .lost → r (S.key i) = s.reg (S.key i) ∧ root' i = S.root i) →
      (∀ i, i < S.n → fate i = .stays → rnd' i = S.rnd i) →
      Good e L (S.redraw root' rnd') → RunLoss e L (S.redraw root' rnd') (spec.afterLoss fate r s)

/-! ### Lemmas -/

variable {e : Env} {L : Lawful e.c G} {S : Session} {root' : Nat → Bytes} {rnd' : Nat → Rand1}

theorem redraw_x {j : Nat} (hr : root' j = S.root j) : (S.redraw root' rnd').x j = S.x j := by
  simp only [Session.x, Session.redraw, hr]

theorem redraw_cont1 {j : Nat} (hr : root' j = S.root j) (hd : rnd' j = S.rnd j) :
    cont e L (S.redraw root' rnd') .one j = cont e L S .one j := by
  have h2 : (S.redraw root' rnd').rnd j = S.rnd j := hd
  simp only [cont, comm, shareX, shareA, redraw_x hr, h2]

theorem PI.again {i k : Nat} {got got' : Round → Nat → Bool} {p : Party} (h : PI e L S i k got p) (hr : root' i = S.root i)
    (hg : ∀ rd j, got' rd j = true → got rd j = true ∧ rd = .one ∧ root' j = S.root j ∧ rnd' j = S.rnd j) (m : Nat) (hm : m ≤ 1) :
    PI e L (S.redraw root' rnd') i m got' p := by
  constructor
  · exact h.index
  · exact h.lm
  · exact h.lV
  · exact h.lpay
  · exact h.lpub
  · rw [redraw_x hr]; exact h.priv
  · intro hk; omega
  · intro hk; omega
  · intro hk; omega
  · intro hk; omega
  · intro hk; omega
  · intro hk; omega
  · intro rd hk; cases rd <;> simp only [Round.num] at hk <;> omega
  · intro rd j hj
    obtain ⟨g1, rfl, g3, g4⟩ := hg rd j hj
    rw [redraw_cont1 g3 g4]
    exact h.recv .one j g1
  · exact ⟨h.idk.1, fun hk => by omega⟩

theorem PI.stay {i k : Nat} {got got' : Round → Nat → Bool} {p : Party} (h : PI e L S i k got p) (h2 : 2 ≤ k) (h3 : k ≤ 3)
    (hr : root' i = S.root i) (hd : rnd' i = S.rnd i)
    (hg : ∀ rd j, got' rd j = true → got rd j = true ∧ rd = .one ∧ root' j = S.root j ∧ rnd' j = S.rnd j) :
    PI e L (S.redraw root' rnd') i 2 got' p := by
  have hd' : (S.redraw root' rnd').rnd i = S.rnd i := hd
  constructor
  · exact h.index
  · exact h.lm
  · exact h.lV
  · exact h.lpay
  · exact h.lpub
  · rw [redraw_x hr]; exact h.priv
  · intro _
    have := h.s1 h2
    simp only [shareA, shareX, redraw_x hr, hd']
    exact this
  · intro _ _; rw [hd']; exact h.srid1 h2 h3
  · intro hk; omega
  · intro hk; omega
  · intro hk; omega
  · intro hk; omega
  · intro rd hk
    cases rd <;> simp only [Round.num] at hk
    · rw [redraw_cont1 hr hd]
      exact h.own .one (by simpa [Round.num] using h2)
    · omega
    · omega
  · intro rd j hj
    obtain ⟨g1, rfl, g3, g4⟩ := hg rd j hj
    rw [redraw_cont1 g3 g4]
    exact h.recv .one j g1
  · exact ⟨h.idk.1, fun _ => h.idk.2 h2⟩

theorem loss_inv {s : Net} (hs : NI e L S s) (fate : Nat → spec.Fate) (r : Reg) (hf : ∀ i, i < S.n → s.final i = none)
    (hb : ∀ rd i j, s.got rd i j = true → j < S.n) (h3 : ∀ i, i < S.n → fate i = .stays → s.stage i ≤ 3)
    (hk : ∀ i, i < S.n → fate i ≠ .lost → r (S.key i) = s.reg (S.key i) ∧ root' i = S.root i)
    (hd : ∀ i, i < S.n → fate i = .stays → rnd' i = S.rnd i) :
    NI e L (S.redraw root' rnd') (spec.afterLoss fate r s) := by
  have hst : ∀ i, (spec.afterLoss fate r s).stage i ≤ 2 := by
    intro i
    simp only [spec.afterLoss]
    split <;> omega
  have hroot : ∀ j, j < S.n → fate j = .stays → root' j = S.root j := fun j hj h => (hk j hj (by rw [h]; simp)).2
  have hgot : ∀ i rd j, (spec.afterLoss fate r s).got rd i j = true →
      s.got rd i j = true ∧ rd = .one ∧ root' j = S.root j ∧ rnd' j = S.rnd j := by
    intro i rd j hj
    have hj' : (if fate i ≠ .lost ∧ fate j = .stays ∧ rd = .one then s.got rd i j else false) = true := hj
    split at hj'
    · next hc =>
      have hjn := hb rd i j hj'
      exact ⟨hj', hc.2.2, hroot j hjn hc.2.1, hd j hjn hc.2.1⟩
    · cases hj'
  constructor
  · intro i hi
    rcases hs.party i hi with h0 | ⟨p, p1, p2⟩
    · left
      simp only [spec.afterLoss]
      split <;> simp [h0]
    · cases hfi : fate i with
      | lost => left; simp [spec.afterLoss, hfi]
      | again =>
        obtain ⟨k1, k2⟩ := hk i hi (by rw [hfi]; simp)
        right
        refine ⟨p, k1.trans p1, ?_⟩
        rw [show (spec.afterLoss fate r s).stage i = min (s.stage i) 1 by simp [spec.afterLoss, hfi]]
        exact p2.again k2 (hgot i) _ (by omega)
      | stays =>
        obtain ⟨k1, k2⟩ := hk i hi (by rw [hfi]; simp)
        right
        refine ⟨p, k1.trans p1, ?_⟩
        rw [show (spec.afterLoss fate r s).stage i = min (s.stage i) 2 by simp [spec.afterLoss, hfi]]
        by_cases h2 : 2 ≤ s.stage i
        · rw [Nat.min_eq_right h2]
          exact p2.stay h2 (h3 i hi hfi) k2 (hd i hi hfi) (hgot i)
        · exact p2.again k2 (hgot i) _ (by omega)
  · intro i hi; have := hst i; omega
  · intro rd j w hj h
    have h' : (if fate j = .stays ∧ rd = .one then s.sent rd j else none) = some w := h
    split at h'
    · next hc =>
      obtain ⟨hc1, rfl⟩ := hc
      rw [redraw_cont1 (hroot j hj hc1) (hd j hj hc1)]
      exact hs.sent .one j w hj h'
    · cases h'
  · intro rd i hi
    have hh := hs.sent_iff rd i hi
    cases hfi : fate i with
    | lost => simp [spec.afterLoss, hfi]
    | again =>
      simp only [spec.afterLoss, hfi]
      cases rd <;> simp [Round.num]
    | stays =>
      simp only [spec.afterLoss, hfi, true_and]
      cases rd with
      | one =>
        simp only [if_true]
        rw [hh]
        simp only [Round.num]
        omega
      | two => simp [Round.num]
      | three => simp [Round.num]
  · intro i hi h rd j
    simp only [spec.afterLoss] at h ⊢
    split
    · next hc =>
      have h0 : s.stage i = 0 := by
        cases hfi : fate i with
        | lost => exact absurd hfi hc.1
        | again => rw [hfi] at h; simp only at h; omega
        | stays => rw [hfi] at h; simp only at h; omega
      exact hs.early i hi h0 rd j
    · rfl
  · intro i out hi h
    have : s.final i = some out := h
    rw [hf i hi] at this
    cases this
  · intro i hi h; have := hst i; omega

/-- Bookkeeping of the clients: a result is there only after the last call, and messages come from parties. -/
structure Books (S : Session) (s : Net) : Prop where
  final : ∀ i, i < S.n → s.stage i ≠ 5 → s.final i = none
  got : ∀ rd i j, s.got rd i j = true → j < S.n

theorem Books.step {s s' : Net} {out : Res Err Bytes} (hb : Books S s) (h : Step e S s out s') : Books S s' := by
  cases h with
  | create i hi h q hq =>
    refine ⟨fun j hj hs => ?_, hb.got⟩
    simp only at hs
    split at hs
    · next hc => rw [hc]; exact hb.final i hi (by omega)
    · exact hb.final j hj hs
  | exec rd i hi h hr q hq =>
    refine ⟨fun j hj hs => ?_, hb.got⟩
    simp only at hs
    split at hs
    · next hc => rw [hc]; exact hb.final i hi (by rw [h]; cases rd <;> simp [Round.num])
    · exact hb.final j hj hs
  | exec4 i hi h hr q hq =>
    refine ⟨fun j hj hs => ?_, hb.got⟩
    simp only at hs ⊢
    split at hs
    · exact absurd rfl hs
    · next hc => rw [if_neg hc]; exact hb.final j hj hs
  | deliver rd i j hi hj h w hw q hq =>
    refine ⟨hb.final, fun rd' i' j' hg => ?_⟩
    have hg' : (if rd' = rd ∧ i' = i ∧ j' = j then true else s.got rd' i' j') = true := hg
    split at hg'
    · next hc => rw [hc.2.2]; exact hj
    · exact hb.got _ _ _ hg'

/-- An honest run is one of these. -/
theorem Run.noLoss {s : Net} (h : Run e S s) (hg : Good e L S) : RunLoss e L S s := by
  induction h with
  | init r => exact .init _ r hg
  | step _ h ih => exact .step ih h
  | noise _ h ih => exact .noise ih h

theorem run_books {s : Net} (h : Run e S s) : Books S s := by
  induction h with
  | init r => exact ⟨fun _ _ _ => rfl, fun _ _ _ h => by cases h⟩
  | step _ hs ih => exact ih.step hs
  | noise _ hn ih => cases hn <;> exact ⟨ih.final, ih.got⟩

theorem steps_inv {s t : Net} (hg : Good e L S) (hs : NI e L S s) (h : Steps e S s t) : NI e L S t := by
  induction h with
  | refl => exact hs
  | head h _ ih => exact ih (step_ok hg hs h).2

/-- In all these runs the invariant of honest runs holds, for the session with the root keys and draws in use. -/
theorem loss_run {s : Net} (h : RunLoss e L S s) : Good e L S ∧ NI e L S s ∧ Books S s := by
  induction h with
  | init S r hg => exact ⟨hg, run_inv hg (Run.init r), ⟨fun _ _ _ => rfl, fun _ _ _ h => by cases h⟩⟩
  | step _ hs ih => exact ⟨ih.1, (step_ok ih.1 ih.2.1 hs).2, ih.2.2.step hs⟩
  | noise _ hn ih =>
    refine ⟨ih.1, noise_ok ih.2.1 hn, ?_⟩
    cases hn <;> exact ⟨ih.2.2.final, ih.2.2.got⟩
  | @loss S s fate r root' rnd' _ h4 h3 hk hd hg' ih =>
    obtain ⟨-, hs, hb⟩ := ih
    have hf : ∀ i, i < S.n → s.final i = none := fun i hi => hb.final i hi (by have := h4 i hi; omega)
    refine ⟨hg', loss_inv hs fate r hf hb.got h3 hk hd, ⟨fun i hi _ => hf i hi, ?_⟩⟩
    intro rd i j hg
    have hg' : (if fate i ≠ .lost ∧ fate j = .stays ∧ rd = .one then s.got rd i j else false) = true := hg
    split at hg'
    · exact hb.got rd i j hg'
    · cases hg'

/-! ### C118 -/

/-- C118. However often parties lose their state and come back, every call succeeds. -/
theorem C118_every_call_ok {s s' : Net} {out : Res Err Bytes} (hr : RunLoss e L S s) (h : Step e S s out s') :
    ∃ b, out = .ok b := by
  obtain ⟨hg, hs, -⟩ := loss_run hr
  exact (step_ok hg hs h).1

/-- C118. From every such state all parties can finish. -/
theorem C118_can_finish {s : Net} (hr : RunLoss e L S s) : ∃ s', Steps e S s s' ∧ ∀ i, i < S.n → s'.stage i = 5 := by
  obtain ⟨hg, hs, -⟩ := loss_run hr
  exact can_finish hg s hs

/-- C118. Every party that has finished holds the joint public key of the root keys in use, its own root key and everybody's
public share, and that is what its last call returned. -/
theorem C118_agreement {s : Net} (hr : RunLoss e L S s) (i : Nat) (hi : i < S.n) (h5 : s.stage i = 5) :
    ∃ p sv out, s.reg (S.key i) = some p ∧ s.final i = some out ∧ e.jsonEnc sv = some out ∧
      p.save.eddsaPub = some (L.pt (((List.range S.n).map S.x).sum • L.base)) ∧
      p.save.privXi = some (S.x i) ∧
      p.save.pubXj = ((List.range S.n).map fun j => some (L.pt (S.x j • L.base))) ∧
      sv.eddsaPub = p.save.eddsaPub ∧ sv.privXi = p.save.privXi ∧ sv.pubXj = p.save.pubXj :=
  agreement_inv (loss_run hr).2.1 i hi h5

/-- C118. Nobody has a result before its last call. -/
theorem C118_no_result_before {s : Net} (hr : RunLoss e L S s) (i : Nat) (hi : i < S.n) (h : s.stage i ≠ 5) : s.final i = none :=
  (loss_run hr).2.2.final i hi h

/-! ### after round 3 -/

/-- a party that can run round 2: all round-1 messages are readable -/
structure CanTwo (e : Env) (L : Lawful e.c G) (S : Session) (i : Nat) (p : Party) : Prop where
  index : p.index = i
  len : p.m1.length = S.n
  ssid : p.ssid = ssidConst
  A : p.commitedA = some (shareA e L S i)
  u : p.u = (S.rnd i).u
  X : p.save.pubXj.getD i none = some (shareX e L S i)
  srid : p.srid = common S
  read : ∀ j, j < S.n → ∃ c, parseWireMsg (p.m1.getD j []) = some (.kg1 c)

theorem CanTwo.deliver {S' : Session} {i : Nat} {key : Bytes} (hs' : Sizes e L S') (hn : S'.n = S.n) : ∀ (l : List Nat) (r : Reg) (p : Party),
    (∀ j ∈ l, j < S.n) → r key = some p → CanTwo e L S i p →
    ∃ p', runOps e (l.map fun (j : Nat) => Op.acc .one key (j : Int) (b64Encode (wireBytes (cont e L S' .one j)))) r key = some p' ∧
      CanTwo e L S i p'
  | [], r, p, _, h, hc => ⟨p, h, hc⟩
  | j :: t, r, p, hl, h, hc => by
    have hj := hl j (by simp)
    obtain ⟨a1, -⟩ := C15_accept_effect .one r key p h j _ _ (b64_round_trip (wireBytes (cont e L S' .one j)))
      ⟨by omega, by have := hc.len; simp only [Round.msgs]; omega⟩
    refine CanTwo.deliver hs' hn t _ (Round.put .one p ((Round.msgs .one p).set (j : Int).toNat (wireBytes (cont e L S' .one j))))
      (fun k hk => hl k (by simp [hk])) ?_ ?_
    · show (Round.accept .one r key (j : Int) _).2 key = _
      rw [a1]
      exact set_same _ _ _
    · refine ⟨hc.index, ?_, hc.ssid, hc.A, hc.u, hc.X, hc.srid, ?_⟩
      · show (p.m1.set _ _).length = _
        simp [hc.len]
      · intro k hk
        show ∃ c, parseWireMsg ((p.m1.set j (wireBytes (cont e L S' .one j))).getD k []) = _
        by_cases hkj : k = j
        · subst hkj
          refine ⟨comm e L S' k, ?_⟩
          rw [List.getD_eq_getElem?_getD, List.getElem?_set_self (by rw [hc.len]; exact hk)]
          exact parse_cont hs' .one k (by rw [hn]; exact hk)
        · rw [List.getD_eq_getElem?_getD, List.getElem?_set_ne (Ne.symm hkj), ← List.getD_eq_getElem?_getD]
          exact hc.read k hk

theorem CanTwo.exec2 {i : Nat} {p : Party} (h : CanTwo e L S i p) : ∃ p', r2Exec p = (.ok (wireBytes (.kg2 ssidConst (common S)
    (intBytes (shareX e L S i).x) (intBytes (shareX e L S i).y) (intBytes (shareA e L S i).x) (intBytes (shareA e L S i).y)
    (S.rnd i).u [] [] [])), p') := by
  have hl := (r2Loop_ok_iff (List.range p.m1.length) (resetOK { p with number := 2 }) _).mpr
    ⟨fun j hj => h.read j (by rw [← h.len]; exact List.mem_range.mp hj), rfl⟩
  obtain ⟨V, f1, -⟩ := r2fold (List.range p.m1.length) (resetOK { p with number := 2 })
  rw [f1] at hl
  unfold r2Exec
  simp only
  rw [show (resetOK { p with number := 2 }).m1.length = p.m1.length from rfl, hl]
  simp only [resetOK, h.index, h.X, h.A, h.ssid, h.srid, h.u]
  exact ⟨_, rfl⟩

/-- The draws of a party that repeats round 2 after round 3: its contribution is the common randomness. -/
def mixed (S : Session) (i : Nat) : Session :=
  { S with rnd := fun k => if k = i then { S.rnd i with srid := common S } else S.rnd k }

theorem common_len (hs : Sizes e L S) : (common S).length ≤ 64 := by
  unfold common
  refine xorAll_length_le _ _ ?_
  intro b hb
  simp only [List.mem_map, List.mem_range] at hb
  obtain ⟨j, hj, rfl⟩ := hb
  exact (hs.draws j hj).1

theorem mixed_sizes (hs : Sizes e L S) (i : Nat) (hi : i < S.n) : Sizes e L (mixed S i) := by
  refine ⟨hs.coords, hs.order, hs.hash, fun k hk => ?_⟩
  simp only [mixed]
  split
  · exact ⟨common_len hs, (hs.draws i hi).2⟩
  · exact hs.draws k hk

theorem r3Step_mismatch {p : Party} {j : Nat} {o : Opening} (hj : j ≠ p.index) (ho : opening e.c (p.m2.getD j []) = some o)
    (hs : o.ssid = p.ssid) (hne : commitHash e.H p.ssid j o.srid o.X o.A o.u ≠ p.V.getD j []) :
    (r3Step e p j).1 = .err (.hashMismatch j) := by
  unfold opening at ho
  unfold r3Step
  rw [if_neg hj]
  split at ho
  · next ssid srid xx xy ax ay u a1 a2 a3 hp =>
    rw [hp]
    simp only at ho ⊢
    cases hA : ECPoint.new e.c (beNat ax) (beNat ay) with
    | none => simp [hA] at ho
    | some A =>
      cases hX : ECPoint.new e.c (beNat xx) (beNat xy) with
      | none => simp [hA, hX] at ho
      | some X =>
        simp only [hA, hX, Option.some.injEq] at ho
        subst ho
        simp only at hs hne ⊢
        rw [if_neg (by simpa using hs), if_pos hne]
  · cases ho

theorem r3Exec_mismatch {p : Party} {o : Opening} (j : Nat) (hj : j < p.m2.length) (hji : j ≠ p.index)
    (ho : opening e.c (p.m2.getD j []) = some o) (hs : o.ssid = p.ssid)
    (hne : commitHash e.H p.ssid j o.srid o.X o.A o.u ≠ p.V.getD j [])
    (h : ∀ k, k < j → k ≠ p.index → ∃ o, Accepts e p k o) : (r3Exec e p).1 = .err (.hashMismatch j) := by
  obtain ⟨pay, pub, f1, -⟩ := r3fold e (List.range j) (resetOK { p with number := 3 }) (fun k hk hki => by
    obtain ⟨o, ho⟩ := h k (List.mem_range.1 hk) hki
    exact ⟨o, ho.1⟩)
  have hl := (r3Loop_ok_iff e (List.range j) (resetOK { p with number := 3 }) _).mpr
    ⟨fun k hk hki => h k (List.mem_range.1 hk) hki, rfl⟩
  rw [f1] at hl
  have hr : List.range p.m2.length = List.range j ++ j :: (List.range (p.m2.length - (j + 1))).map (j + 1 + ·) := by
    have h1 : p.m2.length = (j + 1) + (p.m2.length - (j + 1)) := by omega
    conv_lhs => rw [h1, List.range_add, List.range_succ]
    simp
  have hst := r3Step_mismatch (e := e) (p := { resetOK { p with number := 3 } with
        payload := pay
        save := { (resetOK { p with number := 3 }).save with pubXj := pub }
        srid := sridFold e.c (resetOK { p with number := 3 }) (List.range j) }) (j := j) hji ho hs hne
  have hf := Onsign.forJ_first (List.range j) j ((List.range (p.m2.length - (j + 1))).map (j + 1 + ·)) _ _ hl (by rw [hst]; simp)
  rw [← hr] at hf
  unfold r3Exec
  simp only
  rw [show (resetOK { p with number := 3 }).m2.length = p.m2.length from rfl, hf]
  generalize r3Step e { resetOK { p with number := 3 } with
        payload := pay
        save := { (resetOK { p with number := 3 }).save with pubXj := pub }
        srid := sridFold e.c (resetOK { p with number := 3 }) (List.range j) } j = z at hst
  rcases z with ⟨z1, z2⟩
  simp only at hst
  subst hst
  rfl

/-- C118, the limit. Let a party `i` that has run round 3 merely repeat round 2 (instead of starting again with round 1),
its client having handed in the new round-1 messages of the others: the call succeeds, but the message it returns does not
match the party's own commitment, because round 3 has replaced its contribution by the common randomness.  Whoever gets that
message fails in round 3 and names the honest party `i`, unless the two hash values are equal. -/
theorem C118_after_round3 (hg : Good e L S) (s : Net) (hr : Run e S s) (i : Nat) (hi : i < S.n) (h4 : 4 ≤ s.stage i)
    (hg' : Good e L (S.redraw root' rnd')) (hroot : root' i = S.root i) (hrnd : rnd' i = S.rnd i)
    (t : Net) (ht : RunLoss e L (S.redraw root' rnd') t) (l : List Nat) (hl : ∀ j ∈ l, j < S.n)
    (w : Nat → Bytes) (hw : ∀ j ∈ l, t.sent .one j = some (w j))
    (hne : commitHash e.H ssidConst i (common S) (L.pt (S.x i • L.base)) (L.pt ((S.rnd i).tau • L.base)) (S.rnd i).u ≠
      commitHash e.H ssidConst i (S.rnd i).srid (L.pt (S.x i • L.base)) (L.pt ((S.rnd i).tau • L.base)) (S.rnd i).u) :
    ∃ w2, (KeygenRound2Exec (runOps e (l.map fun (j : Nat) => Op.acc .one (S.key i) (j : Int) (b64Encode (w j))) s.reg) (S.key i)).1 = .ok w2 ∧
      ∀ j, j < S.n → j ≠ i → t.stage j = 3 → (∀ k, k < S.n → k ≠ j → k ≠ i → t.got .two j k = true) →
        (KeygenRound3Exec e (KeygenRound2Accept t.reg (S.key j) i (b64Encode w2)).2 (S.key j)).1 = .err (.hashMismatch i) := by
  obtain ⟨-, hnt, -⟩ := loss_run ht
  have hni := run_inv hg hr
  have hw' : (l.map fun (j : Nat) => Op.acc .one (S.key i) (j : Int) (b64Encode (w j))) =
      l.map fun (j : Nat) => Op.acc .one (S.key i) (j : Int) (b64Encode (wireBytes (cont e L (S.redraw root' rnd') .one j))) :=
    List.map_congr_left fun j hj => by rw [hnt.sent .one j (w j) (hl j hj) (hw j hj)]
  rw [hw']
  rcases hni.party i hi with h0 | ⟨p, hp, hpi⟩
  · omega
  obtain ⟨t1, -, t3, t4, t5⟩ := hpi.s1 (by omega)
  have hc : CanTwo e L S i p := by
    refine ⟨hpi.index, hpi.lm .one, t1, t3, t4, t5, hpi.srid2 h4, fun j hj => ⟨comm e L S j, ?_⟩⟩
    have : p.m1.getD j [] = wireBytes (cont e L S .one j) := by
      by_cases hji : j = i
      · subst hji; exact hpi.own .one (by simp only [Round.num]; omega)
      · exact hpi.recv .one j (got_before hr .one i hi (by simp only [Round.num]; omega) j hj hji)
    rw [this]
    exact parse_cont hg.sizes .one j hj
  obtain ⟨p1, b1, b2⟩ := CanTwo.deliver (S := S) (i := i) (S' := S.redraw root' rnd') (key := S.key i) hg'.sizes rfl l s.reg p hl hp hc
  obtain ⟨p2, c1⟩ := b2.exec2
  refine ⟨_, by unfold KeygenRound2Exec; rw [withParty_some _ b1, c1], ?_⟩
  intro j hj hji h3 hgot
  have hop : opening e.c (wireBytes (.kg2 ssidConst (common S)
      (intBytes (shareX e L S i).x) (intBytes (shareX e L S i).y) (intBytes (shareA e L S i).x) (intBytes (shareA e L S i).y)
      (S.rnd i).u [] [] [])) = some ⟨shareX e L S i, shareA e L S i, ssidConst, common S, (S.rnd i).u⟩ := by
    have := opening_cont (mixed_sizes hg.sizes i hi) i hi
    simpa [mixed, cont, shareX, shareA, Session.x] using this
  generalize wireBytes (.kg2 ssidConst (common S)
      (intBytes (shareX e L S i).x) (intBytes (shareX e L S i).y) (intBytes (shareA e L S i).x) (intBytes (shareA e L S i).y)
      (S.rnd i).u [] [] []) = w2 at hop ⊢
  rcases hnt.party j hj with h0 | ⟨q, hq, hqi⟩
  · omega
  rw [h3] at hqi
  have l2 : q.m2.length = S.n := hqi.lm .two
  obtain ⟨a1, -⟩ := C15_accept_effect .two t.reg (S.key j) q hq i _ _ (b64_round_trip w2)
    ⟨by omega, by simp only [Round.msgs]; omega⟩
  have a1' : (KeygenRound2Accept t.reg (S.key j) i (b64Encode w2)).2 = t.reg.set (S.key j) (some { q with m2 := q.m2.set i w2 }) := a1
  rw [a1']
  unfold KeygenRound3Exec
  rw [withParty_some _ (set_same _ _ _)]
  have hd' : (S.redraw root' rnd').rnd i = S.rnd i := hrnd
  have hm : ∀ k, k ≠ i → (q.m2.set i w2).getD k [] = q.m2.getD k [] := fun k hk => by
    rw [List.getD_eq_getElem?_getD, List.getD_eq_getElem?_getD, List.getElem?_set_ne (Ne.symm hk)]
  have hs1 : q.ssid = ssidConst := (hqi.s1 (by omega)).1
  refine r3Exec_mismatch (e := e) (p := { q with m2 := q.m2.set i w2 }) (o := ⟨shareX e L S i, shareA e L S i, ssidConst, common S, (S.rnd i).u⟩) i
    (by simp only [List.length_set]; omega) (by show i ≠ q.index; rw [hqi.index]; exact Ne.symm hji) ?_ hs1.symm ?_ ?_
  · show opening e.c ((q.m2.set i w2).getD i []) = _
    rw [List.getD_eq_getElem?_getD, List.getElem?_set_self (by omega)]
    exact hop
  · show commitHash e.H q.ssid i (common S) (shareX e L S i) (shareA e L S i) (S.rnd i).u ≠ q.V.getD i []
    rw [hqi.s2 (by omega) i hi, hs1]
    simp only [comm, shareX, shareA, redraw_x hroot, hd']
    exact hne
  · intro k hk hkj
    have hkn : k < S.n := by omega
    have hkj' : k ≠ j := by rw [← hqi.index]; exact hkj
    have hrec : q.m2.getD k [] = wireBytes (cont e L (S.redraw root' rnd') .two k) :=
      hqi.recv .two k (hgot k hkn hkj' (by omega))
    refine ⟨⟨shareX e L (S.redraw root' rnd') k, shareA e L (S.redraw root' rnd') k, ssidConst, ((S.redraw root' rnd').rnd k).srid,
      ((S.redraw root' rnd').rnd k).u⟩, ?_, hs1.symm, ?_⟩
    · show opening e.c ((q.m2.set i w2).getD k []) = _
      rw [hm k (by omega), hrec]
      exact opening_cont hg'.sizes k hkn
    · show commitHash e.H q.ssid k _ _ _ _ = q.V.getD k []
      rw [hqi.s2 (by omega) k hkn, hs1]
      rfl

/-! ### the last word -/

/-- The contribution to the common randomness in a round-2 message. -/
def spec.contribution (w : Bytes) : Bytes :=
  match parseWireMsg w with
  | some (.kg2 _ srid _ _ _ _ _ _ _ _) => srid
  | _ => []

/-- C118, the price. Who says it has lost its state after the others have sent their round-2 messages has the last word: it
can choose the common randomness.  For every `T` that is as long as the contributions, if party `m` comes back with `T` xored
with the contributions it has seen, then all go on without any error and everybody answers in round 3 the challenge for `T`. -/
theorem C118_last_word {s : Net} (hr : RunLoss e L S s) (m : Nat) (hm : m < S.n) (h3 : ∀ i, i < S.n → s.stage i ≤ 3)
    (w : Nat → Bytes) (hw : ∀ j, j < S.n → j ≠ m → s.sent .two j = some (w j)) (T : Bytes) (hT : T.length ≤ 64)
    (hlen : ∀ j, j < S.n → j ≠ m → (spec.contribution (w j)).length ≤ T.length) (d : Rand1) (hu : d.u.length ≤ 64)
    (hd : d.srid = xorBytes T (xorAll (((List.range S.n).filter fun j => j ≠ m).map fun j => spec.contribution (w j))))
    (r : Reg) (hreg : ∀ j, j < S.n → j ≠ m → r (S.key j) = s.reg (S.key j)) :
    RunLoss e L (S.redraw S.root fun k => if k = m then d else S.rnd k) (spec.afterLoss (fun k => if k = m then .lost else .stays) r s) ∧
    ∀ t, Steps e (S.redraw S.root fun k => if k = m then d else S.rnd k) (spec.afterLoss (fun k => if k = m then .lost else .stays) r s) t →
      ∀ k, k < S.n → 4 ≤ t.stage k → ∃ msg2, t.sent .two k = some msg2 ∧ t.sent .three k = some (wireBytes (.kg3 (intBytes
        (Schnorr.Prove e.c.N (if k = m then d else S.rnd k).tau (spec.challengeOf e k T msg2) (S.x k))) [] [])) := by
  obtain ⟨hg, hs, hb⟩ := loss_run hr
  have hc : ∀ j, j < S.n → j ≠ m → spec.contribution (w j) = (S.rnd j).srid := by
    intro j hj hjm
    rw [hs.sent .two j (w j) hj (hw j hj hjm), spec.contribution, parse_cont hg.sizes .two j hj]
    rfl
  have hmap : (((List.range S.n).filter fun j => j ≠ m).map fun j => spec.contribution (w j)) =
      ((List.range S.n).filter fun j => j ≠ m).map fun j => ((if j = m then d else S.rnd j) : Rand1).srid := by
    apply List.map_congr_left
    intro j hj
    simp only [List.mem_filter, List.mem_range, decide_eq_true_eq, ne_eq] at hj
    have hjm : j ≠ m := by simpa using hj.2
    rw [hc j hj.1 hjm, if_neg hjm]
  have hol : (xorAll (((List.range S.n).filter fun j => j ≠ m).map fun j => spec.contribution (w j))).length ≤ T.length := by
    apply xorAll_length_le
    intro b hb
    simp only [List.mem_map, List.mem_filter, List.mem_range] at hb
    obtain ⟨j, ⟨h1, h2⟩, rfl⟩ := hb
    exact hlen j h1 (by simpa using h2)
  have hg' : Good e L (S.redraw S.root fun k => if k = m then d else S.rnd k) := by
    refine ⟨hg.keys, hg.ids, hg.roots, ⟨hg.sizes.coords, hg.sizes.order, hg.sizes.hash, ?_⟩, hg.json⟩
    intro i hi
    simp only [Session.redraw]
    split
    · refine ⟨?_, hu⟩
      rw [hd, xorBytes_length]
      omega
    · exact hg.sizes.draws i hi
  have hcommon : common (S.redraw S.root fun k => if k = m then d else S.rnd k) = T := by
    have := xor_split (fun j => ((if j = m then d else S.rnd j) : Rand1).srid) m (List.range S.n) List.nodup_range
      (List.mem_range.mpr hm)
    have h2 : common (S.redraw S.root fun k => if k = m then d else S.rnd k) =
        xorAll ((List.range S.n).map fun j => ((if j = m then d else S.rnd j) : Rand1).srid) := rfl
    rw [h2, ← this, ← hmap]
    simp only [if_true]
    rw [hd]
    exact xorBytes_cancel _ _ hol
  have hl : RunLoss e L (S.redraw S.root fun k => if k = m then d else S.rnd k)
      (spec.afterLoss (fun k => if k = m then .lost else .stays) r s) := by
    refine .loss _ r S.root _ hr (fun i hi => by have := h3 i hi; omega) (fun i hi _ => h3 i hi) ?_ ?_ hg'
    · intro i hi h
      have him : i ≠ m := by
        intro hc
        exact h (if_pos hc)
      exact ⟨hreg i hi him, rfl⟩
    · intro i hi h
      have him : i ≠ m := by
        intro hc
        have h2 : (if i = m then spec.Fate.lost else spec.Fate.stays) = .stays := h
        rw [if_pos hc] at h2
        cases h2
      exact if_neg him
  refine ⟨hl, fun t ht k hk h4 => ?_⟩
  have hnt := steps_inv hg' (loss_run hl).2.1 ht
  obtain ⟨w2, g2⟩ := Option.isSome_iff_exists.mp ((hnt.sent_iff .two k hk).mpr (by simp only [Round.num]; omega))
  obtain ⟨w3, g3⟩ := Option.isSome_iff_exists.mp ((hnt.sent_iff .three k hk).mpr (by simp only [Round.num]; omega))
  refine ⟨w2, g2, ?_⟩
  rw [g3, hnt.sent .three k w3 hk g3, hnt.sent .two k w2 hk g2, challengeOf_cont hg'.sizes k hk]
  simp only [cont, resp, chal, hcommon]
  rfl

/-! ### Concrete cases -/

/-- On the way to the end there is a moment when somebody has run round 3 and nobody has made its last call. -/
theorem before_last {s t : Net} (h : Steps e S s t) (h0 : ∀ j, j < S.n → s.stage j ≤ 4) (i : Nat) (hi : i < S.n)
    (h5 : t.stage i = 5) (hr : Run e S s) : ∃ u, Run e S u ∧ (∀ j, j < S.n → u.stage j ≤ 4) ∧ ∃ j, j < S.n ∧ u.stage j = 4 := by
  induction h with
  | refl => have := h0 i hi; omega
  | @head a b c out hst _ ih =>
    by_cases hb : ∀ j, j < S.n → b.stage j ≤ 4
    · exact ih hb h5 (Run.step hr hst)
    · have key : ∀ {x k : Nat} {f : Nat → Nat}, (f = fun j => if j = x then k else a.stage j) → k ≤ 4 → (∀ j, j < S.n → f j ≤ 4) := by
        rintro x k f rfl hk j hj
        simp only
        split
        · exact hk
        · exact h0 j hj
      cases hst with
      | exec4 j hj h4 hr' q hq => exact ⟨a, hr, h0, j, hj, h4⟩
      | create => exact absurd (key rfl (by omega)) hb
      | exec rd => exact absurd (key rfl (by cases rd <;> simp [Round.num])) hb
      | deliver => exact absurd h0 hb

/-- the three toy parties of C21: somebody (party `j`) has run round 3 when party `k` loses its state and comes back with the root key 5
and new draws, everybody else starts again with new draws, and all can finish -/
example : ∃ (j : Nat) (root' : Nat → Bytes) (rnd' : Nat → Rand1) (fate : Nat → spec.Fate) (u t : Net), j < 3 ∧ u.stage j = 4 ∧
    Run exEnv exSession u ∧ fate ((j + 1) % 3) = .lost ∧ root' ((j + 1) % 3) = ascii "05" ∧
    RunLoss exEnv toyLawful (exSession.redraw root' rnd') (spec.afterLoss fate (u.reg.set (exSession.key ((j + 1) % 3)) none) u) ∧
    RunLoss exEnv toyLawful (exSession.redraw root' rnd') t ∧ ∀ i, i < 3 → t.stage i = 5 := by
  obtain ⟨z, a1, a2⟩ := C21_can_finish exEnv toyLawful exSession exGood _ (Run.init fun _ => none)
  obtain ⟨u, b1, b2, j, b3, b4⟩ := before_last a1 (fun j _ => by simp) 0 (by decide) (a2 0 (by decide)) (Run.init fun _ => none)
  have hj : j < 3 := b3
  let root' : Nat → Bytes := fun i => if i = (j + 1) % 3 then ascii "05" else exSession.root i
  let rnd' : Nat → Rand1 := fun i => ⟨0, 6 + i, [3, 4], [UInt8.ofNat (5 * i), 8]⟩
  let fate : Nat → spec.Fate := fun i => if i = (j + 1) % 3 then .lost else .again
  have hgood : Good exEnv toyLawful (exSession.redraw root' rnd') := by
    refine ⟨exGood.keys, exGood.ids, ?_, ⟨exGood.sizes.coords, exGood.sizes.order, exGood.sizes.hash, ?_⟩, exGood.json⟩
    · intro i hi
      show ∃ b, hexDecode (if i = (j + 1) % 3 then ascii "05" else exSession.root i) = some b
      split
      · exact ⟨[5], by decide⟩
      · exact exGood.roots i hi
    · intro i _
      simp [Session.redraw, rnd']
  have hl : RunLoss exEnv toyLawful (exSession.redraw root' rnd')
      (spec.afterLoss fate (u.reg.set (exSession.key ((j + 1) % 3)) none) u) := by
    refine .loss fate _ root' rnd' (b1.noLoss exGood) b2 ?_ ?_ ?_ hgood
    · intro i _ h
      simp only [fate] at h
      split at h <;> cases h
    · intro i hi h
      have hne : i ≠ (j + 1) % 3 := by
        intro hc
        exact h (by simp only [fate]; rw [if_pos hc])
      refine ⟨?_, by simp only [root']; rw [if_neg hne]⟩
      exact set_other _ _ fun hc => hne (exGood.keys _ _ hi (Nat.mod_lt _ (by decide)) hc)
    · intro i _ h
      simp only [fate] at h
      split at h <;> cases h
  obtain ⟨t, c1, c2⟩ := C118_can_finish hl
  refine ⟨j, root', rnd', fate, u, t, hj, b4, b1, by simp [fate], by simp [root'], hl, ?_, c2⟩
  have : ∀ {x y : Net}, Steps exEnv (exSession.redraw root' rnd') x y → RunLoss exEnv toyLawful (exSession.redraw root' rnd') x →
      RunLoss exEnv toyLawful (exSession.redraw root' rnd') y := by
    intro x y h
    induction h with
    | refl => exact id
    | head h1 _ ih => exact fun hx => ih (.step hx h1)
  exact this c1 hl

/-- and for these three parties the two hash values of `C118_after_round3` differ -/
example : ∀ i, i < 3 → commitHash exEnv.H ssidConst i (common exSession) (toyLawful.pt (exSession.x i • toyLawful.base))
      (toyLawful.pt ((exSession.rnd i).tau • toyLawful.base)) (exSession.rnd i).u ≠
    commitHash exEnv.H ssidConst i (exSession.rnd i).srid (toyLawful.pt (exSession.x i • toyLawful.base))
      (toyLawful.pt ((exSession.rnd i).tau • toyLawful.base)) (exSession.rnd i).u := by
  decide +kernel

end Tss.Keygen
