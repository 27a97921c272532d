import Verif.Lemmas.Retry
import Verif.Lemmas.Onsign
/-
What a failed signing round leaves behind, and what the next try reads of it.
-/
namespace Tss.Onsign
open Tss Text Wire RangeProofs Retry

/-! ### Round 2 -/

/-- what the verification loop of round 2 writes at step `j` -/
def vupd (p : Party) (j : Nat) (kc : List (Option Int)) : List (Option Int) :=
  if j = p.index then kc else match parseWireMsg (p.m11.getD j []) with
  | some (.sg1a bigK) => kc.set j (some (beNat bigK : Int))
  | _ => kc

theorem r2Verify_core (e : Env) (p : Party) (kc : List (Option Int)) (j : Nat) :
    r2Verify e { p with kc := kc } j = ((r2Verify e p j).1, { p with kc := vupd p j kc }) := by
  unfold r2Verify vupd
  simp only
  split
  · rfl
  · cases parseWireMsg (p.m11.getD j []) with
    | none => rfl
    | some c =>
      cases c <;> try rfl
      simp only
      cases parseWireMsg (p.m12.getD j []) with
      | none => rfl
      | some d =>
        cases d <;> try rfl
        simp only
        split
        · rfl
        · split
          · split <;> rfl
          · rfl

theorem r2Verify_ok {e : Env} {p : Party} {j : Nat} (h : (r2Verify e p j).1 = .ok ()) (hj : j ≠ p.index) :
    ∃ K : Int, ∀ kc, vupd p j kc = kc.set j (some K) := by
  unfold r2Verify at h
  simp only [if_neg hj] at h
  cases hp : parseWireMsg (p.m11.getD j []) with
  | none => rw [hp] at h; cases h
  | some c =>
    rw [hp] at h
    cases c <;> try (cases h)
    rename_i bigK
    exact ⟨beNat bigK, fun kc => by unfold vupd; rw [if_neg hj, hp]⟩

/-- what the proof loop of round 2 writes at step `j` -/
def pupd (e : Env) (draws : Nat → Draws) (k rho K n : Int) (Ri G : ECPoint) (p : Party) (j : Nat) (w : List Bytes × List Bytes) : List Bytes × List Bytes :=
  match p.keys.ringPedersenPKs.getD j none with
  | none => w
  | some ped =>
    match NewKnowExponent e.Hb Ed.curve proofParameter (context p.ssid p.index) k rho K n ped Ri G (draws j) with
    | .err _ => w
    | .panic => w
    | .ok m =>
      match m.verify e.Hb Ed.curve proofParameter (context p.ssid p.index) K n ped Ri G with
      | .err _ => w
      | .panic => w
      | .ok _ =>
        (w.1.set j (wireBytes (.sg2 (intBytes Ri.x) (intBytes Ri.y) (logMarshal m))),
          if j = p.index then w.2.set j (wireBytes (.sg2 (intBytes Ri.x) (intBytes Ri.y) (logMarshal m))) else w.2)

theorem r2Prove_core (e : Env) (draws : Nat → Draws) (k rho K n : Int) (Ri G : ECPoint) (p : Party) (w : List Bytes × List Bytes) (j : Nat) :
    r2Prove e draws k rho K n Ri G { p with send2 := w.1, m2 := w.2 } j = ((r2Prove e draws k rho K n Ri G p j).1,
      { p with send2 := (pupd e draws k rho K n Ri G p j w).1, m2 := (pupd e draws k rho K n Ri G p j w).2 }) := by
  unfold r2Prove pupd
  simp only
  cases p.keys.ringPedersenPKs.getD j none with
  | none => rfl
  | some ped =>
    simp only
    cases NewKnowExponent e.Hb Ed.curve proofParameter (context p.ssid p.index) k rho K n ped Ri G (draws j) with
    | err _ => rfl
    | panic => rfl
    | ok m =>
      simp only
      cases m.verify e.Hb Ed.curve proofParameter (context p.ssid p.index) K n ped Ri G <;> rfl

theorem pupd_cases (e : Env) (draws : Nat → Draws) (k rho K n : Int) (Ri G : ECPoint) (p : Party) (j : Nat) :
    (∃ w, (∀ a, pupd e draws k rho K n Ri G p j a = (a.1.set j w, if j = p.index then a.2.set j w else a.2))) ∨
    ((r2Prove e draws k rho K n Ri G p j).1 ≠ .ok () ∧ ∀ a, pupd e draws k rho K n Ri G p j a = a) := by
  unfold r2Prove pupd
  cases p.keys.ringPedersenPKs.getD j none with
  | none => exact .inr ⟨by simp, fun _ => rfl⟩
  | some ped =>
    simp only
    cases NewKnowExponent e.Hb Ed.curve proofParameter (context p.ssid p.index) k rho K n ped Ri G (draws j) with
    | err _ => exact .inr ⟨by simp, fun _ => rfl⟩
    | panic => exact .inr ⟨by simp, fun _ => rfl⟩
    | ok m =>
      simp only
      cases m.verify e.Hb Ed.curve proofParameter (context p.ssid p.index) K n ped Ri G with
      | err _ => exact .inr ⟨by simp, fun _ => rfl⟩
      | panic => exact .inr ⟨by simp, fun _ => rfl⟩
      | ok _ => exact .inl ⟨_, fun _ => rfl⟩

/-- After failed tries of round 2 (`p`) and without them (`q`). -/
def Rel2 (p q : Party) : Prop := ∃ number ok kc send2 m2,
  p = { q with number := number, ok := ok, kc := kc, send2 := send2, m2 := m2 } ∧ ok.length = q.ok.length ∧
  Agree (fun j => j < q.m11.length ∧ j ≠ q.index) kc q.kc ∧ Agree (· < q.ids.length) send2 q.send2 ∧
  Agree (fun j => j = q.index ∧ j < q.ids.length) m2 q.m2

theorem Rel2.refl (p : Party) : Rel2 p p := ⟨_, _, _, _, _, rfl, rfl, .refl _ _, .refl _ _, .refl _ _⟩

theorem Rel2.trans {p q s : Party} (h : Rel2 p q) (h' : Rel2 q s) : Rel2 p s := by
  obtain ⟨n1, o1, k1, s1, m1, rfl, a1, a2, a3, a4⟩ := h
  obtain ⟨n2, o2, k2, s2, m2, rfl, b1, b2, b3, b4⟩ := h'
  exact ⟨n1, o1, k1, s1, m1, rfl, a1.trans b1, a2.trans b2, a3.trans b3, a4.trans b4⟩

theorem Rel2.msgs {p q : Party} (h : Rel2 p q) {s11 s12 s2 s3 : List Bytes → List Bytes} (h11 : MsgFn s11) (h2 : MsgFn s2) :
    Rel2 { p with m11 := s11 p.m11, m12 := s12 p.m12, m2 := s2 p.m2, m3 := s3 p.m3 }
      { q with m11 := s11 q.m11, m12 := s12 q.m12, m2 := s2 q.m2, m3 := s3 q.m3 } := by
  obtain ⟨n1, o1, k1, s1, m1, rfl, a1, a2, a3, a4⟩ := h
  exact ⟨n1, o1, k1, s1, s2 m1, rfl, a1, a2.mono (fun j hj => by rwa [h11.length]), a3, h2.agree a4⟩

/-- the verification loop, from any ciphertext list -/
theorem r2Verify_loop (e : Env) (p : Party) (l : List Nat) (kc : List (Option Int)) : Keygen.forJ (r2Verify e) l { p with kc := kc } =
    (outcome (fun j => (r2Verify e p j).1) l, { p with kc := done (fun j => (r2Verify e p j).1) (vupd p) l kc }) :=
  forJ_core (r2Verify e) (fun kc => { p with kc := kc }) _ (vupd p) (fun w j => r2Verify_core e p w j) l kc

theorem r2Prove_loop (e : Env) (draws : Nat → Draws) (k rho K n : Int) (Ri G : ECPoint) (p : Party) (l : List Nat) (w : List Bytes × List Bytes) :
    Keygen.forJ (r2Prove e draws k rho K n Ri G) l { p with send2 := w.1, m2 := w.2 } =
    (outcome (fun j => (r2Prove e draws k rho K n Ri G p j).1) l, { p with
      send2 := (done (fun j => (r2Prove e draws k rho K n Ri G p j).1) (pupd e draws k rho K n Ri G p) l w).1
      m2 := (done (fun j => (r2Prove e draws k rho K n Ri G p j).1) (pupd e draws k rho K n Ri G p) l w).2 }) :=
  forJ_core (r2Prove e draws k rho K n Ri G) (fun w => { p with send2 := w.1, m2 := w.2 }) _ _
    (fun w j => r2Prove_core e draws k rho K n Ri G p w j) l w

theorem vupd_agree (p : Party) (D : Nat → Prop) (j : Nat) (hd : j ≠ p.index → D j) (kc b : List (Option Int)) (h : Agree D kc b) :
    Agree D (vupd p j kc) b := by
  unfold vupd
  split
  · exact h
  · rename_i hj
    split
    · exact h.set_left j (hd hj) _
    · exact h

/-- the part of round 2 after the verification loop, with what it reads given -/
def r2Rest (e : Env) (draws : Nat → Draws) (k rho K n : Option Int) (p : Party) : Res Err Unit × Party :=
  match k with
  | none => (.panic, p)
  | some k =>
    match ECPoint.new Ed.curve Ed.curve.Gx Ed.curve.Gy with
    | none => (.err .basePoint, p)
    | some G =>
      match ECPoint.scalarBaseMult Ed.curve k, rho, K, n with
      | some Ri, some rho, some K, some n =>
        Keygen.forJ (r2Prove e draws k rho K n Ri G) (List.range p.ids.length) p
      | _, _, _, _ => (.panic, p)

theorem r2Exec_split (e : Env) (draws : Nat → Draws) (p0 s p : Party) (n : Nat) (o : Res Err Unit) (hn : p0.m11.length = n)
    (hs : resetOK { p0 with number := 2 } = s) (h : Keygen.forJ (r2Verify e) (List.range n) s = (o, p)) : r2Exec e draws p0 =
    match (generalizing := false) o with
    | .err er => (.err er, p)
    | .panic => (.panic, p)
    | .ok _ => r2Rest e draws p.k p.rho (p.kc.getD p.index none) (p.keys.paillierPKs.getD p.index none) p := by
  subst hn hs
  change Keygen.forJ (r2Verify e) (List.range (resetOK { p0 with number := 2 }).m11.length) (resetOK { p0 with number := 2 }) = (o, p) at h
  unfold r2Exec
  simp only
  rw [h]
  cases o with
  | err er => rfl
  | panic => rfl
  | ok u =>
    simp only
    unfold r2Rest
    generalize ECPoint.new Ed.curve Ed.curve.Gx Ed.curve.Gy = G0
    generalize p.kc.getD p.index none = K
    generalize p.keys.paillierPKs.getD p.index none = n
    rcases hk : p.k with _ | k
    · rfl
    · simp only
      cases G0 with
      | none => rfl
      | some G =>
        simp only
        generalize ECPoint.scalarBaseMult Ed.curve k = Ri
        generalize p.rho = rho
        cases Ri <;> cases rho <;> cases K <;> cases n <;> rfl

theorem r2Rest_rel (e : Env) (draws : Nat → Draws) (k rho K n : Option Int) (c : Party) (s1 m1 : List Bytes)
    (a3 : Agree (· < c.ids.length) s1 c.send2) (a4 : Agree (fun j => j = c.index ∧ j < c.ids.length) m1 c.m2) :
    (r2Rest e draws k rho K n { c with send2 := s1, m2 := m1 }).1 = (r2Rest e draws k rho K n c).1 ∧
    ∃ s2 m2, (r2Rest e draws k rho K n { c with send2 := s1, m2 := m1 }).2 = { c with send2 := s2, m2 := m2 } ∧
      Agree (· < c.ids.length) s2 c.send2 ∧ Agree (fun j => j = c.index ∧ j < c.ids.length) m2 c.m2 ∧
      ((r2Rest e draws k rho K n c).1 = .ok () → (r2Rest e draws k rho K n { c with send2 := s1, m2 := m1 }).2 = (r2Rest e draws k rho K n c).2) := by
  unfold r2Rest
  cases k with
  | none => exact ⟨rfl, s1, m1, rfl, a3, a4, fun h => by cases h⟩
  | some k =>
  simp only
  cases ECPoint.new Ed.curve Ed.curve.Gx Ed.curve.Gy with
  | none => exact ⟨rfl, s1, m1, rfl, a3, a4, fun h => by cases h⟩
  | some G =>
  simp only
  split
  · rename_i Ri rho K n _
    have P1 := r2Prove_loop e draws k rho K n Ri G c (List.range c.ids.length) (s1, m1)
    have P2 : Keygen.forJ (r2Prove e draws k rho K n Ri G) (List.range c.ids.length) c = _ :=
      r2Prove_loop e draws k rho K n Ri G c (List.range c.ids.length) (c.send2, c.m2)
    change Keygen.forJ (r2Prove e draws k rho K n Ri G) (List.range c.ids.length) { c with send2 := s1, m2 := m1 } = _ at P1
    rw [P1, P2]
    have hcc := pupd_cases e draws k rho K n Ri G c
    change ∀ j, (∃ w, ∀ a : List Bytes × List Bytes, _ = (a.1.set j w, if j = c.index then a.2.set j w else a.2)) ∨ _ at hcc
    generalize hres2 : (fun j => (r2Prove e draws k rho K n Ri G c j).1) = res2
    have hr2 : ∀ j, (r2Prove e draws k rho K n Ri G c j).1 = res2 j := fun j => by rw [← hres2]
    simp only [hr2] at hcc
    generalize pupd e draws k rho K n Ri G c = upd at hcc
    have I2 : Agree (· < c.ids.length) (done res2 upd (List.range c.ids.length) (s1, m1)).1 c.send2 ∧
        Agree (fun j => j = c.index ∧ j < c.ids.length) (done res2 upd (List.range c.ids.length) (s1, m1)).2 c.m2 :=
      done_inv (I := fun w => Agree (· < c.ids.length) w.1 c.send2 ∧ Agree (fun j => j = c.index ∧ j < c.ids.length) w.2 c.m2)
        res2 upd _ (s1, m1) (fun j hj w hw => by
          have hj := List.mem_range.1 hj
          rcases hcc j with ⟨v, hv⟩ | ⟨-, hv⟩
          · rw [hv]
            refine ⟨hw.1.set_left j hj v, ?_⟩
            show Agree _ (if j = c.index then w.2.set j v else w.2) c.m2
            split
            · rename_i hji; exact hw.2.set_left j ⟨hji, hj⟩ v
            · exact hw.2
          · rw [hv]; exact hw) ⟨a3, a4⟩
    refine ⟨rfl, _, _, rfl, I2.1, I2.2, fun ho2 => ?_⟩
    have S2 := done_sync (R := fun l w w' => Agree (· ∈ l) w.1 w'.1 ∧ Agree (fun j => j = c.index ∧ j ∈ l) w.2 w'.2) res2 upd
      (fun j t w w' hj hR => by
        rcases hcc j with ⟨v, hv⟩ | ⟨hv, -⟩
        · rw [hv, hv]
          refine ⟨(hR.1.set j v).mono fun k hk => (List.mem_cons.1 hk.1).resolve_left hk.2, ?_⟩
          show Agree _ (if j = c.index then w.2.set j v else w.2) (if j = c.index then w'.2.set j v else w'.2)
          split
          · exact (hR.2.set j v).mono fun k hk => ⟨hk.1.1, (List.mem_cons.1 hk.1.2).resolve_left hk.2⟩
          · rename_i hji
            exact hR.2.mono fun k hk => ⟨hk.1, (List.mem_cons.1 hk.2).resolve_left fun h' => hji (h'.symm.trans hk.1)⟩
        · exact absurd hj hv)
      (List.range c.ids.length) (s1, m1) (c.send2, c.m2) ho2
      ⟨a3.mono fun j hj => List.mem_range.2 hj, a4.mono fun j hj => ⟨hj.1, List.mem_range.2 hj.2⟩⟩
    have t1 := S2.1.eq fun j hj => by cases hj
    have t2 := S2.2.eq fun j hj => by cases hj.2
    show ({ c with send2 := _, m2 := _ } : Party) = { c with send2 := _, m2 := _ }
    rw [t1, t2]
  · exact ⟨rfl, s1, m1, rfl, a3, a4, fun h => by cases h⟩

/-- round 2 from related parties -/
theorem r2Exec_rel (e : Env) (draws : Nat → Draws) (p q : Party) (h : Rel2 p q) :
    (r2Exec e draws p).1 = (r2Exec e draws q).1 ∧ Rel2 (r2Exec e draws p).2 q ∧
    ((r2Exec e draws q).1 = .ok () → (r2Exec e draws p).2 = (r2Exec e draws q).2) := by
  obtain ⟨n1, o1, kc, s1, m1, rfl, a1, a2, a3, a4⟩ := h
  -- the common core
  let c : Party := resetOK { q with number := 2 }
  have hp : resetOK { { q with number := n1, ok := o1, kc := kc, send2 := s1, m2 := m1 } with number := 2 } =
      { { c with send2 := s1, m2 := m1 } with kc := kc } := by
    show ({ q with number := 2, ok := o1.map fun _ => false, kc := kc, send2 := s1, m2 := m1 } : Party) = { q with
      number := 2, ok := q.ok.map fun _ => false, kc := kc, send2 := s1, m2 := m1 }
    rw [map_false a1]
  have hq : resetOK { q with number := 2 } = { c with kc := q.kc } := rfl
  -- the verification loop does not read what was written
  have hv : ∀ j, (r2Verify e { c with send2 := s1, m2 := m1 } j).1 = (r2Verify e c j).1 := by
    intro j
    unfold r2Verify
    simp only
    repeat' split
    all_goals rfl
  have hu : ∀ j w, vupd { c with send2 := s1, m2 := m1 } j w = vupd c j w := fun _ _ => rfl
  have L1 := r2Verify_loop e { c with send2 := s1, m2 := m1 } (List.range q.m11.length) kc
  have L2 := r2Verify_loop e c (List.range q.m11.length) q.kc
  rw [funext hv] at L1
  have hu' : vupd { c with send2 := s1, m2 := m1 } = vupd c := rfl
  rw [hu'] at L1
  generalize hres : (fun j => (r2Verify e c j).1) = res at L1 L2
  -- what is in the ciphertext list afterwards
  have hci : c.index = q.index := rfl
  have I1 : Agree (fun j => j < q.m11.length ∧ j ≠ q.index) (done res (vupd c) (List.range q.m11.length) kc) q.kc :=
    done_inv (I := fun w => Agree (fun j => j < q.m11.length ∧ j ≠ q.index) w q.kc) res (vupd c) _ kc
      (fun j hj w hw => vupd_agree c _ j (fun hji => ⟨List.mem_range.1 hj, hji⟩) w q.kc hw) a2
  have S1 : outcome res (List.range q.m11.length) = .ok () →
      done res (vupd c) (List.range q.m11.length) kc = done res (vupd c) (List.range q.m11.length) q.kc := by
    intro ho
    have := done_sync (R := fun l w w' => Agree (fun k => k ∈ l ∧ k ≠ q.index) w w') res (vupd c)
      (fun j t w w' hj hR => by
        by_cases hji : j = q.index
        · have hv1 : ∀ w, vupd c j w = w := fun w => by unfold vupd; exact if_pos hji
          rw [hv1, hv1]
          exact hR.mono fun k hk => ⟨by
            rcases List.mem_cons.1 hk.1 with h' | h'
            · exact absurd (h'.trans hji) hk.2
            · exact h', hk.2⟩
        · have : (r2Verify e c j).1 = .ok () := by rw [← hres] at hj; exact hj
          obtain ⟨K, hK⟩ := r2Verify_ok this hji
          rw [hK, hK]
          exact (hR.set j _).mono fun k hk => ⟨(List.mem_cons.1 hk.1.1).resolve_left hk.2, hk.1.2⟩)
      (List.range q.m11.length) kc q.kc ho (a2.mono fun j hj => ⟨List.mem_range.2 hj.1, hj.2⟩)
    exact this.eq fun j hj => by cases hj.1
  generalize hk1 : done res (vupd c) (List.range q.m11.length) kc = kc1 at L1 I1 S1
  generalize hk2 : done res (vupd c) (List.range q.m11.length) q.kc = kc2 at L2 S1
  have relv : ∀ (s2 : List Bytes) (m2 : List Bytes) (kc1 : List (Option Int)),
      Agree (fun j => j < q.m11.length ∧ j ≠ q.index) kc1 q.kc → Agree (· < q.ids.length) s2 q.send2 →
      Agree (fun j => j = q.index ∧ j < q.ids.length) m2 q.m2 →
      Rel2 { c with kc := kc1, send2 := s2, m2 := m2 } q := fun s2 m2 kc1 h1 h2 h3 =>
    ⟨2, q.ok.map fun _ => false, kc1, s2, m2, rfl, by simp, h1, h2, h3⟩
  rw [r2Exec_split e draws _ _ _ _ _ rfl hp L1, r2Exec_split e draws q _ _ _ _ rfl hq L2]
  cases ho : outcome res (List.range q.m11.length) with
  | err er => exact ⟨rfl, relv _ _ _ I1 a3 a4, fun h => by cases h⟩
  | panic => exact ⟨rfl, relv _ _ _ I1 a3 a4, fun h => by cases h⟩
  | ok u =>
    have hkk := S1 ho
    subst hkk
    obtain ⟨r1, s2, m2, r2, r3, r4, r5⟩ := r2Rest_rel e draws c.k c.rho (kc1.getD c.index none) (c.keys.paillierPKs.getD c.index none)
      { c with kc := kc1 } s1 m1 a3 a4
    refine ⟨r1, ?_, r5⟩
    show Rel2 (r2Rest e draws c.k c.rho (kc1.getD c.index none) (c.keys.paillierPKs.getD c.index none)
      { { c with kc := kc1 } with send2 := s1, m2 := m1 }).2 q
    rw [r2]
    exact relv _ _ _ I1 r3 r4

/-! ### Round 1 -/

/-- what the proof loop of round 1 writes at step `j` -/
def qupd (e : Env) (rnd : Rand1) (n K : Int) (p : Party) (j : Nat) (w : List Bytes × List Bytes) : List Bytes × List Bytes :=
  match p.keys.ringPedersenPKs.getD j none with
  | none => w
  | some ped =>
    match NewEncryptRangeMessage e.Hb proofParameter (context p.ssid p.index) K n rnd.k rnd.rho ped (rnd.enc j) with
    | .err _ => w
    | .panic => w
    | .ok m => (w.1.set j (wireBytes (.sg1b (encMarshal m))), if j = p.index then w.2.set j (wireBytes (.sg1b (encMarshal m))) else w.2)

theorem r1Step_core (e : Env) (rnd : Rand1) (n K : Int) (p : Party) (w : List Bytes × List Bytes) (j : Nat) :
    r1Step e rnd n K { p with send12 := w.1, m12 := w.2 } j = ((r1Step e rnd n K p j).1,
      { p with send12 := (qupd e rnd n K p j w).1, m12 := (qupd e rnd n K p j w).2 }) := by
  unfold r1Step qupd
  simp only
  cases p.keys.ringPedersenPKs.getD j none with
  | none => rfl
  | some ped =>
    simp only
    cases NewEncryptRangeMessage e.Hb proofParameter (context p.ssid p.index) K n rnd.k rnd.rho ped (rnd.enc j) <;> rfl

theorem qupd_cases (e : Env) (rnd : Rand1) (n K : Int) (p : Party) (j : Nat) :
    (∃ w, (∀ a, qupd e rnd n K p j a = (a.1.set j w, if j = p.index then a.2.set j w else a.2))) ∨
    ((r1Step e rnd n K p j).1 ≠ .ok () ∧ ∀ a, qupd e rnd n K p j a = a) := by
  unfold r1Step qupd
  cases p.keys.ringPedersenPKs.getD j none with
  | none => exact .inr ⟨by simp, fun _ => rfl⟩
  | some ped =>
    simp only
    cases NewEncryptRangeMessage e.Hb proofParameter (context p.ssid p.index) K n rnd.k rnd.rho ped (rnd.enc j) with
    | err _ => exact .inr ⟨by simp, fun _ => rfl⟩
    | panic => exact .inr ⟨by simp, fun _ => rfl⟩
    | ok m => exact .inl ⟨_, fun _ => rfl⟩

theorem r1Step_loop (e : Env) (rnd : Rand1) (n K : Int) (p : Party) (l : List Nat) (w : List Bytes × List Bytes) :
    Keygen.forJ (r1Step e rnd n K) l { p with send12 := w.1, m12 := w.2 } =
    (outcome (fun j => (r1Step e rnd n K p j).1) l, { p with
      send12 := (done (fun j => (r1Step e rnd n K p j).1) (qupd e rnd n K p) l w).1
      m12 := (done (fun j => (r1Step e rnd n K p j).1) (qupd e rnd n K p) l w).2 }) :=
  forJ_core (r1Step e rnd n K) (fun w => { p with send12 := w.1, m12 := w.2 }) _ _
    (fun w j => r1Step_core e rnd n K p w j) l w

theorem r1Proofs_rel (e : Env) (rnd : Rand1) (n K : Int) (c : Party) (s1 m1 : List Bytes)
    (a3 : Agree (· < c.ids.length) s1 c.send12) (a4 : Agree (fun j => j = c.index ∧ j < c.ids.length) m1 c.m12) :
    (r1Proofs e rnd n K { c with send12 := s1, m12 := m1 }).1 = (r1Proofs e rnd n K c).1 ∧
    ∃ s2 m2, (r1Proofs e rnd n K { c with send12 := s1, m12 := m1 }).2 = { c with send12 := s2, m12 := m2 } ∧
      Agree (· < c.ids.length) s2 c.send12 ∧ Agree (fun j => j = c.index ∧ j < c.ids.length) m2 c.m12 ∧
      (∀ b, (r1Proofs e rnd n K c).1 = .ok b → (r1Proofs e rnd n K { c with send12 := s1, m12 := m1 }).2 = (r1Proofs e rnd n K c).2) := by
  unfold r1Proofs
  have P1 := r1Step_loop e rnd n K c (List.range c.ids.length) (s1, m1)
  have P2 : Keygen.forJ (r1Step e rnd n K) (List.range c.ids.length) c = _ :=
    r1Step_loop e rnd n K c (List.range c.ids.length) (c.send12, c.m12)
  change Keygen.forJ (r1Step e rnd n K) (List.range c.ids.length) { c with send12 := s1, m12 := m1 } = _ at P1
  simp only
  rw [P1, P2]
  have hcc := qupd_cases e rnd n K c
  generalize hres2 : (fun j => (r1Step e rnd n K c j).1) = res2
  have hr2 : ∀ j, (r1Step e rnd n K c j).1 = res2 j := fun j => by rw [← hres2]
  simp only [hr2] at hcc
  generalize qupd e rnd n K c = upd at hcc
  have I2 : Agree (· < c.ids.length) (done res2 upd (List.range c.ids.length) (s1, m1)).1 c.send12 ∧
      Agree (fun j => j = c.index ∧ j < c.ids.length) (done res2 upd (List.range c.ids.length) (s1, m1)).2 c.m12 :=
    done_inv (I := fun w => Agree (· < c.ids.length) w.1 c.send12 ∧ Agree (fun j => j = c.index ∧ j < c.ids.length) w.2 c.m12)
      res2 upd _ (s1, m1) (fun j hj w hw => by
        have hj := List.mem_range.1 hj
        rcases hcc j with ⟨v, hv⟩ | ⟨-, hv⟩
        · rw [hv]
          refine ⟨hw.1.set_left j hj v, ?_⟩
          show Agree _ (if j = c.index then w.2.set j v else w.2) c.m12
          split
          · rename_i hji; exact hw.2.set_left j ⟨hji, hj⟩ v
          · exact hw.2
        · rw [hv]; exact hw) ⟨a3, a4⟩
  cases ho : outcome res2 (List.range c.ids.length) with
  | err er => exact ⟨rfl, _, _, rfl, I2.1, I2.2, fun b h => by cases h⟩
  | panic => exact ⟨rfl, _, _, rfl, I2.1, I2.2, fun b h => by cases h⟩
  | ok u =>
    refine ⟨rfl, _, _, rfl, I2.1, I2.2, fun b ho2 => ?_⟩
    have S2 := done_sync (R := fun l w w' => Agree (· ∈ l) w.1 w'.1 ∧ Agree (fun j => j = c.index ∧ j ∈ l) w.2 w'.2) res2 upd
      (fun j t w w' hj hR => by
        rcases hcc j with ⟨v, hv⟩ | ⟨hv, -⟩
        · rw [hv, hv]
          refine ⟨(hR.1.set j v).mono fun k hk => (List.mem_cons.1 hk.1).resolve_left hk.2, ?_⟩
          show Agree _ (if j = c.index then w.2.set j v else w.2) (if j = c.index then w'.2.set j v else w'.2)
          split
          · exact (hR.2.set j v).mono fun k hk => ⟨hk.1.1, (List.mem_cons.1 hk.1.2).resolve_left hk.2⟩
          · rename_i hji
            exact hR.2.mono fun k hk => ⟨hk.1, (List.mem_cons.1 hk.2).resolve_left fun h' => hji (h'.symm.trans hk.1)⟩
        · exact absurd hj hv)
      (List.range c.ids.length) (s1, m1) (c.send12, c.m12) ho
      ⟨a3.mono fun j hj => List.mem_range.2 hj, a4.mono fun j hj => ⟨hj.1, List.mem_range.2 hj.2⟩⟩
    have t1 := S2.1.eq fun j hj => by cases hj
    have t2 := S2.2.eq fun j hj => by cases hj.2
    show ({ c with send12 := _, m12 := _ } : Party) = { c with send12 := _, m12 := _ }
    rw [t1, t2]

/-- After failed tries of round 1 (`p`) and without them (`q`). -/
def Rel1 (p q : Party) : Prop := ∃ number ok pub k rho kc m11 m12 send12 ssid,
  p = { q with number := number, ok := ok, keys := { q.keys with eddsaPub := pub }, k := k, rho := rho, kc := kc, m11 := m11, m12 := m12,
               send12 := send12, ssid := ssid } ∧
  ok.length = q.ok.length ∧ Agree (· = q.index) kc q.kc ∧ Agree (· = q.index) m11 q.m11 ∧
  Agree (fun j => j = q.index ∧ j < q.ids.length) m12 q.m12 ∧ Agree (· < q.ids.length) send12 q.send12

theorem Rel1.refl (p : Party) : Rel1 p p :=
  ⟨_, _, _, _, _, _, _, _, _, _, rfl, rfl, .refl _ _, .refl _ _, .refl _ _, .refl _ _⟩

theorem Rel1.msgs {p q : Party} (h : Rel1 p q) {s11 s12 s2 s3 : List Bytes → List Bytes} (h11 : MsgFn s11) (h12 : MsgFn s12) :
    Rel1 { p with m11 := s11 p.m11, m12 := s12 p.m12, m2 := s2 p.m2, m3 := s3 p.m3 }
      { q with m11 := s11 q.m11, m12 := s12 q.m12, m2 := s2 q.m2, m3 := s3 q.m3 } := by
  obtain ⟨_, _, _, _, _, _, _, _, _, _, rfl, a1, a2, a3, a4, a5⟩ := h
  exact ⟨_, _, _, _, _, _, _, _, _, _, rfl, a1, a2, h11.agree a3, h12.agree a4, a5⟩

/-- round 1 from related parties -/
theorem r1Exec_rel (e : Env) (rnd : Rand1) (p q : Party) (h : Rel1 p q) :
    (r1Exec e rnd p).1 = (r1Exec e rnd q).1 ∧ Rel1 (r1Exec e rnd p).2 q ∧
    (∀ b, (r1Exec e rnd q).1 = .ok b → (r1Exec e rnd p).2 = (r1Exec e rnd q).2) := by
  obtain ⟨n1, o1, pub, k, rho, kc, m11, m12, s12, ssid, rfl, a1, a2, a3, a4, a5⟩ := h
  have hm : (o1.map fun _ => false) = q.ok.map fun _ => false := map_false a1
  have relv : ∀ pub k rho kc m11 m12 s12, Agree (· = q.index) kc q.kc → Agree (· = q.index) m11 q.m11 →
      Agree (fun j => j = q.index ∧ j < q.ids.length) m12 q.m12 → Agree (· < q.ids.length) s12 q.send12 →
      Rel1 { q with number := 1, ok := q.ok.map fun _ => false, keys := { q.keys with eddsaPub := pub }, k := k, rho := rho, kc := kc, m11 := m11,
                    m12 := m12, send12 := s12, ssid := ssidConst } q :=
    fun pub k rho kc m11 m12 s12 h1 h2 h3 h4 => ⟨_, _, _, _, _, _, _, _, _, _, rfl, by simp, h1, h2, h3, h4⟩
  unfold r1Exec resetOK r1Body
  simp only
  rw [hm]
  rcases hx : q.keys.pubXj with _ | ⟨x, t⟩
  · exact ⟨rfl, by simp only; rw [← hx]; exact relv _ _ _ _ _ _ _ a2 a3 a4 a5, fun b h => by cases h⟩
  · cases x with
    | none => exact ⟨rfl, by simp only; rw [← hx]; exact relv _ _ _ _ _ _ _ a2 a3 a4 a5, fun b h => by cases h⟩
    | some X0 =>
      simp only
      rw [← hx]
      cases sumPub 1 X0 t with
      | err er => exact ⟨rfl, relv _ _ _ _ _ _ _ a2 a3 a4 a5, fun b h => by cases h⟩
      | panic => exact ⟨rfl, relv _ _ _ _ _ _ _ a2 a3 a4 a5, fun b h => by cases h⟩
      | ok s =>
        simp only
        unfold r1Encrypt
        simp only
        rcases q.keys.paillierPKs.getD q.index none with _ | n
        · exact ⟨rfl, relv _ _ _ _ _ _ _ a2 a3 a4 a5, fun b h => by cases h⟩
        · simp only
          split
          · exact ⟨rfl, relv _ _ _ _ _ _ _ a2 a3 a4 a5, fun b h => by cases h⟩
          · cases Paillier.cipher n rnd.k rnd.rho with
            | none => exact ⟨rfl, relv _ _ _ _ _ _ _ a2 a3 a4 a5, fun b h => by cases h⟩
            | some K =>
              simp only
              have t1 : kc.set q.index (some K) = q.kc.set q.index (some K) := (a2.set q.index (some K)).eq fun j hj => hj.2 hj.1
              have t2 : m11.set q.index (wireBytes (.sg1a (intBytes K))) = q.m11.set q.index (wireBytes (.sg1a (intBytes K))) :=
                (a3.set q.index _).eq fun j hj => hj.2 hj.1
              rw [t1, t2]
              obtain ⟨r1, s2, m2, r2, r3, r4, r5⟩ := r1Proofs_rel e rnd n K { q with
                number := 1, ok := q.ok.map fun _ => false, keys := { q.keys with eddsaPub := some s }, k := some rnd.k, rho := some rnd.rho,
                kc := q.kc.set q.index (some K), m11 := q.m11.set q.index (wireBytes (.sg1a (intBytes K))), ssid := ssidConst } s12 m12 a5 a4
              refine ⟨r1, ?_, r5⟩
              have := relv (some s) (some rnd.k) (some rnd.rho) (q.kc.set q.index (some K)) (q.m11.set q.index (wireBytes (.sg1a (intBytes K)))) m2 s2
                ((Agree.refl (· = q.index) q.kc).set_left q.index rfl _) ((Agree.refl (· = q.index) q.m11).set_left q.index rfl _) r4 r3
              simp only at r2
              rw [r2]
              exact this

/-! ### Round 3 -/

/-- After failed tries of round 3 (`p`) and without them (`q`). -/
def Rel3 (p q : Party) : Prop := ∃ number ok, p = { q with number := number, ok := ok } ∧ ok.length = q.ok.length

theorem Rel3.refl (p : Party) : Rel3 p p := ⟨_, _, rfl, rfl⟩

theorem Rel3.msgs {p q : Party} (h : Rel3 p q) {s11 s12 s2 s3 : List Bytes → List Bytes} :
    Rel3 { p with m11 := s11 p.m11, m12 := s12 p.m12, m2 := s2 p.m2, m3 := s3 p.m3 }
      { q with m11 := s11 q.m11, m12 := s12 q.m12, m2 := s2 q.m2, m3 := s3 q.m3 } := by
  obtain ⟨_, _, rfl, a1⟩ := h
  exact ⟨_, _, rfl, a1⟩

theorem Rel3.reset {p q : Party} (h : Rel3 p q) (n : Nat) : resetOK { p with number := n } = resetOK { q with number := n } := by
  obtain ⟨n1, o1, rfl, a1⟩ := h
  show ({ q with number := n, ok := o1.map fun _ => false } : Party) = { q with number := n, ok := q.ok.map fun _ => false }
  rw [map_false a1]

/-- round 3 from related parties -/
theorem r3Exec_rel (e : Env) (zs : Nat → Int) (p q : Party) (h : Rel3 p q) :
    r3Exec e zs p = r3Exec e zs q ∧ ((∀ b, (r3Exec e zs p).1 ≠ .ok b) → Rel3 (r3Exec e zs p).2 q) := by
  have h1 : r3Exec e zs p = r3Exec e zs q := by
    unfold r3Exec
    simp only [h.reset 3]
  refine ⟨h1, ?_⟩
  rw [h1]
  have hr : Rel3 (resetOK { q with number := 3 }) q := ⟨3, q.ok.map fun _ => false, rfl, by simp⟩
  unfold r3Exec
  simp only
  generalize ECPoint.new Ed.curve Ed.curve.Gx Ed.curve.Gy = G0
  cases G0 with
  | none => exact fun _ => hr
  | some G =>
    simp only
    split
    · exact fun _ => hr
    · exact fun _ => hr
    · split
      · exact fun _ => hr
      · exact fun h => absurd rfl (h _)

/-! ### The last round -/

/-- After failed tries of the last round (`p`) and without them (`q`). -/
def Rel4 (p q : Party) : Prop := ∃ number ok data, p = { q with number := number, ok := ok, data := data } ∧ ok.length = q.ok.length

theorem Rel4.refl (p : Party) : Rel4 p p := ⟨_, _, _, rfl, rfl⟩

theorem Rel4.msgs {p q : Party} (h : Rel4 p q) {s11 s12 s2 s3 : List Bytes → List Bytes} :
    Rel4 { p with m11 := s11 p.m11, m12 := s12 p.m12, m2 := s2 p.m2, m3 := s3 p.m3 }
      { q with m11 := s11 q.m11, m12 := s12 q.m12, m2 := s2 q.m2, m3 := s3 q.m3 } := by
  obtain ⟨_, _, _, rfl, a1⟩ := h
  exact ⟨_, _, _, rfl, a1⟩

theorem finalStep_data (d : SigData) (s : Party × Option Bytes) (j : Nat) : finalStep ({ s.1 with data := d }, s.2) j =
    ((finalStep s j).1, ({ (finalStep s j).2.1 with data := d }, (finalStep s j).2.2)) := by
  unfold finalStep
  simp only
  split
  · rfl
  · cases parseWireMsg (s.1.m3.getD j []) with
    | none => rfl
    | some c =>
      cases c <;> try rfl
      simp only
      cases s.2 <;> rfl

/-- the summation loop changes the ok flags only -/
theorem finalStep_keeps (q : Party) (s : Party × Option Bytes) (j : Nat) (h : Rel4 s.1 q) : Rel4 (finalStep s j).2.1 q := by
  obtain ⟨n1, o1, d1, h1, a1⟩ := h
  have hr : Rel4 { s.1 with ok := s.1.ok.set j true } q := by rw [h1]; exact ⟨n1, o1.set j true, d1, rfl, by simpa using a1⟩
  unfold finalStep
  simp only
  split
  · exact hr
  · split
    · exact hr
    · split <;> exact hr
    · exact hr

theorem finalExec_rel (e : Env) (p q : Party) (h : Rel4 p q) :
    (finalExec e p).1 = (finalExec e q).1 ∧ Rel4 (finalExec e p).2 q ∧
    (∀ b, (finalExec e q).1 = .ok b → (finalExec e p).2 = (finalExec e q).2) := by
  obtain ⟨n1, o1, d1, rfl, a1⟩ := h
  have hp : resetOK { { q with number := n1, ok := o1, data := d1 } with number := 4 } = { resetOK { q with number := 4 } with data := d1 } := by
    show ({ q with number := 4, ok := o1.map fun _ => false, data := d1 } : Party) = { q with number := 4, ok := q.ok.map fun _ => false, data := d1 }
    rw [map_false a1]
  have hL := forJ_map finalStep (fun s => ({ s.1 with data := d1 }, s.2)) (finalStep_data d1) (List.range q.ids.length) (resetOK { q with number := 4 }, q.si)
  have hI := forJ_inv (I := fun s => Rel4 s.1 q) finalStep (fun s j hs => finalStep_keeps q s j hs) (List.range q.ids.length)
    (resetOK { q with number := 4 }, q.si) ⟨4, q.ok.map fun _ => false, q.data, rfl, by simp⟩
  unfold finalExec
  simp only
  rw [hp]
  change Keygen.forJ finalStep (List.range q.ids.length) ({ resetOK { q with number := 4 } with data := d1 }, q.si) = _ at hL
  have g3 : (resetOK { q with number := 4 }).ids = q.ids := rfl
  have g4 : (resetOK { q with number := 4 }).si = q.si := rfl
  simp only [g3, g4] at hL ⊢
  rw [hL]
  revert hI
  generalize Keygen.forJ finalStep (List.range q.ids.length) (resetOK { q with number := 4 }, q.si) = z
  intro hI
  rcases z with ⟨o, s, sum⟩
  obtain ⟨n2, o2, d2, rfl, b1⟩ := hI
  have relv : ∀ d, Rel4 { q with number := n2, ok := o2, data := d } q := fun d => ⟨n2, o2, d, rfl, b1⟩
  cases o with
  | err er => exact ⟨rfl, relv _, fun b h => by cases h⟩
  | panic => exact ⟨rfl, relv _, fun b h => by cases h⟩
  | ok u =>
    cases sum with
    | none => exact ⟨rfl, relv _, fun b h => by cases h⟩
    | some sum =>
      simp only
      rcases hr : q.r with _ | r
      · exact ⟨rfl, by simp only; rw [← hr]; exact relv _, fun b h => by cases h⟩
      · simp only
        rw [← hr]
        rcases ha : q.keys.eddsaPub with _ | A
        · exact ⟨trivial, relv _, fun b h => by cases h⟩
        · simp only
          split
          · split
            · exact ⟨trivial, relv _, fun b h => by cases h⟩
            · exact ⟨trivial, relv _, fun b h => trivial⟩
          · exact ⟨trivial, relv _, fun b h => by cases h⟩

end Tss.Onsign
