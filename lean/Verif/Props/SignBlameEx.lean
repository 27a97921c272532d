import Verif.Props.LastRound
import Verif.Props.OnsignHonestEx
/-! C82, C83: every honest session meets the hypotheses; a concrete session. -/
namespace Tss.Onsign
open Tss Text Wire RangeProofs
open _root_.Tss.Keygen (forJ)

variable {e : Env} {S : Session} {F : Facts e S}

theorem Signed1.snoc {key : Bytes} {rnd : Rand1} {w1 : Bytes} {r : Reg} (h : spec.Signed1 e key rnd w1 r) (op : Op)
    (ho : op.key = key → spec.quiet op = true) : spec.Signed1 e key rnd w1 (op.run e r).2 := by
  obtain ⟨r0, r1, ops, a, b, c, d⟩ := h
  refine ⟨r0, r1, ops ++ [op], a, b, ?_, by rw [runOps_append, d]; rfl⟩
  intro o hm
  rcases List.mem_append.mp hm with h | h
  · exact c o h
  · rw [List.mem_singleton.mp h]; exact ho

theorem Signed2.snoc {key : Bytes} {rnd : Rand1} {w1 : Bytes} {M1 : List Bytes} {r : Reg} (h : spec.Signed2 e key rnd w1 M1 r) (op : Op)
    (ho : op.key = key → spec.quiet op = true) : spec.Signed2 e key rnd w1 M1 (op.run e r).2 := by
  obtain ⟨dr, r1, r2, ops, q, a, b, b2, b3, c, d⟩ := h
  refine ⟨dr, r1, r2, ops ++ [op], q, a, b, b2, b3, ?_, by rw [runOps_append, d]; rfl⟩
  intro o hm
  rcases List.mem_append.mp hm with h | h
  · exact c o h
  · rw [List.mem_singleton.mp h]; exact ho

/-- what the clients of an honest session have done -/
structure Told (F : Facts e S) (s : Net) : Prop where
  run : Run e S s
  reach : Reach e s.reg
  one : ∀ i, i < S.n → s.stage i = 2 → ∃ w1, spec.Signed1 e (S.key i) (S.rnd i) w1 s.reg
  two : ∀ i, i < S.n → s.stage i = 3 → ∃ w1 M1, spec.Signed2 e (S.key i) (S.rnd i) w1 M1 s.reg ∧
    ∀ j, j < S.n → M1.getD j [] = wireBytes (F.cont .a j i)

theorem Told.other {s s' : Net} (h : Told F s) (op : Op) (hreg : s'.reg = (op.run e s.reg).2) (hrun : Run e S s')
    (hst : ∀ i, i < S.n → (s'.stage i = s.stage i ∧ (op.key = S.key i → spec.quiet op = true)) ∨
      ((s'.stage i = 2 → ∃ w1, spec.Signed1 e (S.key i) (S.rnd i) w1 s'.reg) ∧
       (s'.stage i = 3 → ∃ w1 M1, spec.Signed2 e (S.key i) (S.rnd i) w1 M1 s'.reg ∧
          ∀ j, j < S.n → M1.getD j [] = wireBytes (F.cont .a j i)))) : Told F s' := by
  refine ⟨hrun, by rw [hreg]; exact .step op h.reach, ?_, ?_⟩
  · intro i hi h2
    rcases hst i hi with ⟨a, b⟩ | ⟨a, b⟩
    · obtain ⟨w1, hw⟩ := h.one i hi (by rw [← a]; exact h2)
      exact ⟨w1, by rw [hreg]; exact Signed1.snoc hw op b⟩
    · exact a h2
  · intro i hi h3
    rcases hst i hi with ⟨a, b⟩ | ⟨a, b⟩
    · obtain ⟨w1, M1, hw, hM⟩ := h.two i hi (by rw [← a]; exact h3)
      exact ⟨w1, M1, by rw [hreg]; exact Signed2.snoc hw op b, hM⟩
    · exact b h3

theorem told_step {s s' : Net} {out : Res Err Bytes} (h : Told F s) (hs : Step e S s out s') : Told F s' := by
  have hrun := Run.step h.run hs
  have hni := run_inv F.toGFacts h.run
  obtain ⟨⟨b, hb⟩, -⟩ := step_ok hni hs
  have elsewhere : ∀ (op : Op) (i k i' : Nat), i < S.n → op.key = S.key i → i' < S.n → i' ≠ i →
      (upd s.stage i k i' = s.stage i' ∧ (op.key = S.key i' → spec.quiet op = true)) := by
    intro op i k i' hi hk hi' hne
    exact ⟨upd_other _ _ hne, fun h => absurd (F.keyInj i' i hi' hi (h.symm.trans hk)) hne⟩
  cases hs with
  | create i hi h0 q hq =>
    subst hq
    refine h.other (.new (S.key i) (S.args i)) rfl hrun fun i' hi' => ?_
    by_cases hne : i' = i
    · subst hne; exact .inr ⟨fun h => by simp [upd] at h, fun h => by simp [upd] at h⟩
    · exact .inl (elsewhere _ i 1 i' hi rfl hi' hne)
  | exec1 i hi h0 q hq =>
    subst hq
    refine h.other (.exec1 (S.key i) (S.rnd i)) rfl hrun fun i' hi' => ?_
    by_cases hne : i' = i
    · subst hne
      refine .inr ⟨fun _ => ⟨b, s.reg, _, [], h.reach, Prod.ext hb rfl, by intro o ho; simp at ho, rfl⟩, fun h => by simp [upd] at h⟩
    · exact .inl (elsewhere _ i 2 i' hi rfl hi' hne)
  | exec2 i hi h0 ha hb' q hq =>
    subst hq
    refine h.other (.exec2 (S.key i) (S.draws i)) rfl hrun fun i' hi' => ?_
    by_cases hne : i' = i
    · subst hne
      refine .inr ⟨fun h => by simp [upd] at h, fun _ => ?_⟩
      obtain ⟨w1, hw⟩ := h.one i' hi h0
      obtain ⟨p, p1, p2⟩ := hni.stage_ne hi (by omega)
      refine ⟨w1, p.m11, ⟨S.draws i', s.reg, _, [], p, hw, p1, rfl, Prod.ext ?_ rfl, by intro o ho; simp at ho, rfl⟩, ?_⟩
      · revert hb
        generalize (OnsignRound2Exec e (S.draws i') s.reg (S.key i')).1 = o
        intro hb
        cases o with
        | ok u => rfl
        | err _ => cases hb
        | panic => cases hb
      · exact fun j hj => p2.all .a (by rw [h0]; exact le_refl 2) ha j hj
    · exact .inl (elsewhere _ i 3 i' hi rfl hi' hne)
  | exec3 i hi h0 hr q hq =>
    subst hq
    refine h.other (.exec3 (S.key i) (S.zs i)) rfl hrun fun i' hi' => ?_
    by_cases hne : i' = i
    · subst hne; exact .inr ⟨fun h => by simp [upd] at h, fun h => by simp [upd] at h⟩
    · exact .inl (elsewhere _ i 4 i' hi rfl hi' hne)
  | final i hi h0 hr q hq =>
    subst hq
    refine h.other (.final (S.key i)) rfl hrun fun i' hi' => ?_
    by_cases hne : i' = i
    · subst hne; exact .inr ⟨fun h => by simp [upd] at h, fun h => by simp [upd] at h⟩
    · exact .inl (elsewhere _ i 5 i' hi rfl hi' hne)
  | fetch1 i j hi hj h0 q hq =>
    subst hq
    exact h.other (.get1 (S.key j) i) rfl hrun fun i' hi' => .inl ⟨rfl, fun _ => rfl⟩
  | fetch2 i j hi hj h0 q hq =>
    subst hq
    exact h.other (.get2 (S.key j) i) rfl hrun fun i' hi' => .inl ⟨rfl, fun _ => rfl⟩
  | deliver mk i j hi hj h0 w hw q hq =>
    subst hq
    exact h.other (mk.op (S.key i) j (b64Encode w)) (by rw [Mk.op_run]) hrun fun i' hi' => .inl ⟨rfl, fun _ => by cases mk <;> rfl⟩

theorem told_init (F : Facts e S) : Told F ⟨fun _ => none, fun _ => 0, fun _ _ _ => none, fun _ _ _ => false, fun _ => none⟩ :=
  ⟨.init _, .init, fun _ _ h => by simp at h, fun _ _ h => by simp at h⟩

theorem stage_step {s s' : Net} {out : Res Err Bytes} {i : Nat} (hs : Step e S s out s') :
    s'.stage i = s.stage i ∨ (s'.stage i = s.stage i + 1 ∧ (s.stage i = 2 → s.all S .a i ∧ s.all S .b i) ∧
      (s.stage i = 3 → s.all S .two i) ∧ (s.stage i = 4 → s.all S .three i)) := by
  cases hs with
  | create i' hi h0 q hq =>
    by_cases h : i = i'
    · subst h; exact .inr ⟨by simp [upd, h0], by omega, by omega, by omega⟩
    · exact .inl (upd_other _ _ h)
  | exec1 i' hi h0 q hq =>
    by_cases h : i = i'
    · subst h; exact .inr ⟨by simp [upd, h0], by omega, by omega, by omega⟩
    · exact .inl (upd_other _ _ h)
  | exec2 i' hi h0 ha hb q hq =>
    by_cases h : i = i'
    · subst h; exact .inr ⟨by simp [upd, h0], fun _ => ⟨ha, hb⟩, by omega, by omega⟩
    · exact .inl (upd_other _ _ h)
  | exec3 i' hi h0 ha q hq =>
    by_cases h : i = i'
    · subst h; exact .inr ⟨by simp [upd, h0], by omega, fun _ => ha, by omega⟩
    · exact .inl (upd_other _ _ h)
  | final i' hi h0 ha q hq =>
    by_cases h : i = i'
    · subst h; exact .inr ⟨by simp [upd, h0], by omega, by omega, fun _ => ha⟩
    · exact .inl (upd_other _ _ h)
  | fetch1 i' j hi hj h0 q hq => exact .inl rfl
  | fetch2 i' j hi hj h0 q hq => exact .inl rfl
  | deliver mk i' j hi hj h0 w hw q hq => exact .inl rfl

/-- on the way to the end, every party is about to run each round with all messages at hand -/
theorem crossing {i : Nat} : ∀ {s s' : Net}, Steps e S s s' → Told F s → (k : Nat) → s.stage i ≤ k → k < s'.stage i →
    ∃ t, Told F t ∧ t.stage i = k ∧ (k = 2 → t.all S .a i ∧ t.all S .b i) ∧ (k = 3 → t.all S .two i) ∧ (k = 4 → t.all S .three i) := by
  intro s s' h
  induction h with
  | refl s => intro _ k h1 h2; omega
  | @head s s1 s2 out h1 _ ih =>
    intro ht k hk hk'
    rcases stage_step (i := i) h1 with he | ⟨he, h2, h3, h4⟩
    · exact ih (told_step ht h1) k (by omega) hk'
    · by_cases hc : s.stage i = k
      · subst hc; exact ⟨s, ht, rfl, h2, h3, h4⟩
      · exact ih (told_step ht h1) k (by omega) hk'

theorem url_len (k : Kind) : (typeUrl k).length ≤ 200 := by cases k <;> decide

theorem wire_le (c : Content) : (wireBytes c).length ≤ 300 + c.marshal.length := by
  unfold wireBytes
  have h1 := encField_length_le 1 (typeUrl c.kind)
  have h2 := encField_length_le 2 c.marshal
  have h3 := url_len c.kind
  simp only [List.length_append]
  omega

theorem honest_len (F : Facts e S) {mk : Mk} {i j : Nat} (hi : i < S.n) (hj : j < S.n) (hm : mk ≠ .three) : (wireBytes (F.cont mk i j)).length < 2 ^ 64 := by
  have h0 := wire_le (F.cont mk i j)
  have p1 : 2 ^ 63 + 2000 < (2 : Nat) ^ 64 := by norm_num
  have p2 : 2 ^ 60 < (2 : Nat) ^ 63 := by norm_num
  cases mk with
  | a =>
    have h1 := encField_length_le 1 (intBytes (F.K i))
    have h2 := F.KLen i hi
    have h3 : (F.cont .a i j).marshal = encField 1 (intBytes (F.K i)) := rfl
    rw [h3] at h0
    omega
  | b =>
    have h1 := encField_length_le 1 (encMarshal (F.enc i j))
    have h2 := F.encLen i j hi hj
    have h3 : (F.cont .b i j).marshal = encField 1 (encMarshal (F.enc i j)) := rfl
    rw [h3] at h0
    omega
  | two =>
    obtain ⟨x1, x2⟩ := point_short ((S.rnd i).k • Ed.B)
    have h1 := encField_length_le 1 (intBytes (F.R i).x)
    have h1' := encField_length_le 2 (intBytes (F.R i).y)
    have h1'' := encField_length_le 3 (logMarshal (F.log i j))
    have h2 := F.logLen i j hi hj
    have h3 : (F.cont .two i j).marshal = encField 1 (intBytes (F.R i).x) ++ encField 2 (intBytes (F.R i).y) ++ encField 3 (logMarshal (F.log i j)) := rfl
    rw [h3] at h0
    change (intBytes (F.R i).x).length ≤ 32 at x1
    change (intBytes (F.R i).y).length ≤ 32 at x2
    simp only [List.length_append] at h0
    omega
  | three => exact absurd rfl hm

/-- Every honest session meets the hypotheses of `C82_round2`: two parties of it, each when it is about to run round 2. -/
theorem honest_meets2 (H : Honest e S) {i j : Nat} (hi : i < S.n) (hj : j < S.n) (hij : i ≠ j) :
    ∃ (wi wj uj : Bytes) (r r' : Reg) (p q : Party),
      spec.Signed1 e (S.key i) (S.rnd i) wi r ∧ r (S.key i) = some p ∧ spec.Signed1 e (S.key j) (S.rnd j) wj r' ∧ r' (S.key j) = some q ∧
      p.index = i ∧ q.index = j ∧ (GetRound1Msg2 r' (S.key j) p.index).1 = .ok uj ∧
      p.m11.getD q.index [] = wj ∧ p.m12.getD q.index [] = uj ∧ wj.length < 2 ^ 64 ∧ uj.length < 2 ^ 64 ∧
      p.keys.paillierPKs.getD q.index none = some (H.N j : Int) ∧ q.keys.paillierPKs.getD q.index none = some (H.N j : Int) ∧
      p.keys.ringPedersenPKs.getD p.index none = some ((H.pn i : Int), (H.ps i : Int), (H.pt i : Int)) ∧
      q.keys.ringPedersenPKs.getD p.index none = some ((H.pn i : Int), (H.ps i : Int), (H.pt i : Int)) := by
  obtain ⟨F, f1, f2, f3, f4⟩ := H.facts
  obtain ⟨s, g1, g2⟩ := C55_can_finish H _ (told_init F).run
  obtain ⟨t, t1, t2, t3, -⟩ := crossing (i := i) g1 (told_init F) 2 (by simp) (by rw [g2 i hi]; decide)
  obtain ⟨t', t1', t2', -, -⟩ := crossing (i := j) g1 (told_init F) 2 (by simp) (by rw [g2 j hj]; decide)
  obtain ⟨ta, tb⟩ := t3 rfl
  obtain ⟨p, p1, p2⟩ := (run_inv F.toGFacts t1.run).stage_ne hi (by omega)
  obtain ⟨q, q1, q2⟩ := (run_inv F.toGFacts t1'.run).stage_ne hj (by omega)
  rw [t2] at p2
  rw [t2'] at q2
  obtain ⟨wi, hwi⟩ := t1.one i hi t2
  obtain ⟨wj, hwj⟩ := t1'.one j hj t2'
  obtain ⟨-, q', n, K, b0, b1, b2, b3, b4, b5, b6, -⟩ := signed1 hwj
  rw [q1] at b0; cases b0
  obtain ⟨ep, hkp⟩ := p2.keys
  obtain ⟨eq, hkq⟩ := q2.keys
  have hN : ∀ k, k < S.n → F.keys k = H.keys k := fun k _ => by rw [f2]
  have kp : ∀ l, l < S.n → p.keys.paillierPKs.getD l none = some (H.N l : Int) := by
    intro l hl; rw [hkp, f2]; simp [Honest.keys, hl]
  have kq : ∀ l, l < S.n → q.keys.paillierPKs.getD l none = some (H.N l : Int) := by
    intro l hl; rw [hkq, f2]; simp [Honest.keys, hl]
  have pp : ∀ l, l < S.n → p.keys.ringPedersenPKs.getD l none = some ((H.pn l : Int), (H.ps l : Int), (H.pt l : Int)) := by
    intro l hl; rw [hkp, f2]; simp [Honest.keys, hl]
  have pq : ∀ l, l < S.n → q.keys.ringPedersenPKs.getD l none = some ((H.pn l : Int), (H.ps l : Int), (H.pt l : Int)) := by
    intro l hl; rw [hkq, f2]; simp [Honest.keys, hl]
  have hnj : n = F.N j := by
    have := F.paillier j j hj hj
    rw [hkq, q2.index] at b2
    rw [this] at b2
    exact (Option.some.inj b2).symm
  have hK : K = F.K j := by
    rw [hnj, F.cipher j hj] at b5
    exact (Option.some.inj b5).symm
  have hwj' : wj = wireBytes (F.cont .a j i) := by rw [b6, hK]; rfl
  have hg : (GetRound1Msg2 t'.reg (S.key j) (i : Int)).1 = .ok (wireBytes (F.cont .b j i)) := by
    unfold GetRound1Msg2
    rw [withParty_some _ _ q1]
    simp only [getMsg]
    rw [if_pos ⟨by omega, by rw [q2.ls1]; exact_mod_cast hi⟩, Int.toNat_natCast, q2.send1 (le_refl _) i hi]
  refine ⟨wi, wj, wireBytes (F.cont .b j i), t.reg, t'.reg, p, q, hwi, p1, hwj, q1, p2.index, q2.index, ?_, ?_, ?_, ?_, ?_, ?_, ?_, ?_, ?_⟩
  · rw [p2.index]; exact hg
  · rw [q2.index, hwj']; exact p2.all .a (le_refl 2) ta j hj
  · rw [q2.index]; exact p2.all .b (le_refl 2) tb j hj
  · rw [hwj']; exact honest_len F hj hi (by decide)
  · exact honest_len F hj hi (by decide)
  · rw [q2.index]; exact kp j hj
  · rw [q2.index]; exact kq j hj
  · rw [p2.index]; exact pp i hi
  · rw [p2.index]; exact pq i hi

/-- Every honest session meets the hypotheses of `C82_round3`. -/
theorem honest_meets3 (H : Honest e S) {i j : Nat} (hi : i < S.n) (hj : j < S.n) (hij : i ≠ j) :
    ∃ (wi wj vj : Bytes) (Mi Mj : List Bytes) (r r' : Reg) (p q : Party),
      spec.Signed2 e (S.key i) (S.rnd i) wi Mi r ∧ r (S.key i) = some p ∧ spec.Signed2 e (S.key j) (S.rnd j) wj Mj r' ∧ r' (S.key j) = some q ∧
      p.index = i ∧ q.index = j ∧ (GetRound2Msg r' (S.key j) p.index).1 = .ok vj ∧ q.index < p.ids.length ∧
      Mi.getD q.index [] = wj ∧ p.m2.getD q.index [] = vj ∧ wj.length < 2 ^ 64 ∧ vj.length < 2 ^ 64 ∧
      p.keys.paillierPKs.getD q.index none = q.keys.paillierPKs.getD q.index none ∧
      p.keys.ringPedersenPKs.getD p.index none = q.keys.ringPedersenPKs.getD p.index none := by
  obtain ⟨F, f1, f2, f3, f4⟩ := H.facts
  obtain ⟨s, g1, g2⟩ := C55_can_finish H _ (told_init F).run
  obtain ⟨t, t1, t2, -, t3, -⟩ := crossing (i := i) g1 (told_init F) 3 (by simp) (by rw [g2 i hi]; decide)
  obtain ⟨t', t1', t2', -, -⟩ := crossing (i := j) g1 (told_init F) 3 (by simp) (by rw [g2 j hj]; decide)
  have ta := t3 rfl
  obtain ⟨p, p1, p2⟩ := (run_inv F.toGFacts t1.run).stage_ne hi (by omega)
  obtain ⟨q, q1, q2⟩ := (run_inv F.toGFacts t1'.run).stage_ne hj (by omega)
  rw [t2] at p2
  rw [t2'] at q2
  obtain ⟨wi, Mi, hwi, hMi⟩ := t1.two i hi t2
  obtain ⟨wj, Mj, hwj, hMj⟩ := t1'.two j hj t2'
  obtain ⟨-, q', n, K, Ri, G, b0, b1, b2, b3, b4, b5, b6, -⟩ := signed2 hwj
  rw [q1] at b0; cases b0
  obtain ⟨ep, hkp⟩ := p2.keys
  obtain ⟨eq, hkq⟩ := q2.keys
  have hnj : n = F.N j := by
    have := F.paillier j j hj hj
    rw [hkq, q2.index] at b2
    rw [this] at b2
    exact (Option.some.inj b2).symm
  have hK : K = F.K j := by
    rw [hnj, F.cipher j hj] at b5
    exact (Option.some.inj b5).symm
  have hwj' : wj = wireBytes (F.cont .a j i) := by rw [b6, hK]; rfl
  have hg : (GetRound2Msg t'.reg (S.key j) (i : Int)).1 = .ok (wireBytes (F.cont .two j i)) := by
    unfold GetRound2Msg
    rw [withParty_some _ _ q1]
    simp only [getMsg]
    rw [if_pos ⟨by omega, by rw [q2.ls2]; exact_mod_cast hi⟩, Int.toNat_natCast, q2.send2 (le_refl _) i hi]
  refine ⟨wi, wj, wireBytes (F.cont .two j i), Mi, Mj, t.reg, t'.reg, p, q, hwi, p1, hwj, q1, p2.index, q2.index, ?_, ?_, ?_, ?_, ?_, ?_, ?_, ?_⟩
  · rw [p2.index]; exact hg
  · rw [q2.index, p2.ids, F.lids]; exact hj
  · rw [q2.index, hwj']; exact hMi j hj
  · rw [q2.index]; exact p2.all .two (le_refl 3) ta j hj
  · rw [hwj']; exact honest_len F hj hi (by decide)
  · exact honest_len F hj hi (by decide)
  · rw [q2.index, hkp, hkq]; exact (F.paillier i j hi hj).trans (F.paillier j j hj hj).symm
  · rw [p2.index, hkp, hkq]; exact (F.peds i i hi hi).trans (F.peds j i hj hi).symm

/-- the toy session, parties 0 and 1, before round 2 and before round 3 -/
example : (∃ (wi wj uj : Bytes) (r r' : Reg) (p q : Party), spec.Signed1 (toyEnvSha id) [0] ⟨3, 2, fun _ => toyDraws⟩ wi r ∧ r [0] = some p ∧
      spec.Signed1 (toyEnvSha id) [1] ⟨3, 2, fun _ => toyDraws⟩ wj r' ∧ r' [1] = some q ∧
      ∀ draws er, (OnsignRound2Exec (toyEnvSha id) draws r [0]).1 = .err er → spec.blamed er ≠ some q.index) ∧
    (∃ (wi wj vj : Bytes) (Mi Mj : List Bytes) (r r' : Reg) (p q : Party), spec.Signed2 (toyEnvSha id) [0] ⟨3, 2, fun _ => toyDraws⟩ wi Mi r ∧
      r [0] = some p ∧ spec.Signed2 (toyEnvSha id) [1] ⟨3, 2, fun _ => toyDraws⟩ wj Mj r' ∧ r' [1] = some q ∧
      p.m2.getD 1 [] = vj ∧ ∀ zs er, (OnsignRound3Exec (toyEnvSha id) zs r [0]).1 = .err er → spec.blamed er ≠ some q.index) := by
  obtain ⟨H⟩ := toyHonestK id (fun _ => 3) (fun _ => by decide)
  constructor
  · obtain ⟨wi, wj, uj, r, r', p, q, a1, a2, a3, a4, a5, a6, a7, a8, a9, a10, a11, a12, a13, a14, a15⟩ :=
      honest_meets2 H (i := 0) (j := 1) (by decide) (by decide) (by decide)
    refine ⟨wi, wj, uj, r, r', p, q, a1, a2, a3, a4, fun draws er he => ?_⟩
    obtain ⟨m1, m2, m3, m4⟩ := H.moduli 0 (by decide)
    obtain ⟨n1, n2, n3, n4⟩ := H.nonce 1 (by decide)
    obtain ⟨e1, e2⟩ := H.encUnit 1 0 (by decide) (by decide)
    exact C82_round2 a1 a2 a3 a4 a7 a8 a9 a10 a11 a12 a13 a14 a15 m2 m3 m4 n4 (by rw [a5]; exact e1) (by rw [a5]; exact e2) draws er he
  · obtain ⟨wi, wj, vj, Mi, Mj, r, r', p, q, a1, a2, a3, a4, a5, a6, a7, a8, a9, a10, a11, a12, a13, a14⟩ :=
      honest_meets3 H (i := 0) (j := 1) (by decide) (by decide) (by decide)
    refine ⟨wi, wj, vj, Mi, Mj, r, r', p, q, a1, a2, a3, a4, by rw [← a10, a6], fun zs er he => ?_⟩
    exact C82_round3 a1 a2 a3 a4 a7 a8 a9 a10 a11 a12 a13 a14 zs er he

theorem ord_gt : 2 < Ed.ord := by decide +kernel

/-- the toy session: party 0 has run round 3 and is handed the share 1 or the share 2 in the name of party 1 (at least one of
them is wrong): its last call fails -/
example : ∃ (s : Net) (c : UInt8), Run (toyEnvSha id) (toySessionK fun _ => 3) s ∧ s.stage 0 = 4 ∧
    (OnsignFinalExec (toyEnvSha id) (runOps (toyEnvSha id) [.acc3 [0] 1 (b64Encode (wireBytes (.sg3 [c])))] s.reg) [0]).1 =
      .err .verifyFailed := by
  obtain ⟨H⟩ := toyHonestK id (fun _ => 3) (fun _ => by decide)
  obtain ⟨F, -⟩ := H.facts
  obtain ⟨s2, g1, g2⟩ := C55_can_finish H _ (told_init F).run
  have hr2 := g1.run (told_init F).run
  have n2 := run_inv F.toGFacts hr2
  obtain ⟨t, t1, t2, -⟩ := crossing (i := 0) g1 (told_init F) 4 (by simp) (by rw [g2 0 (by decide)]; decide)
  obtain ⟨p, p1, p2⟩ := (run_inv F.toGFacts t1.run).stage_ne (i := 0) (by decide) (by omega)
  have hsent : ∀ j, j < 2 → s2.sent .three j 0 = some (wireBytes (F.cont .three j 0)) := by
    intro j hj
    obtain ⟨w, hw⟩ := Option.isSome_iff_exists.mp (n2.sentC j 0 hj (by decide) (by rw [g2 j hj]; decide))
    rw [hw, n2.sent .three j 0 w hj (by decide) hw]
  obtain ⟨good, hgood, -⟩ := share_of_sent n2 (i := 0) (j := 1) (by decide) (by decide) (hsent 1 (by decide))
  have hl : p.m3.length = 2 := p2.lm .three
  have key : ∀ c : UInt8, c ≠ 0 → spec.shareValue [c] % Ed.ord ≠ spec.shareValue good % Ed.ord →
      (OnsignFinalExec (toyEnvSha id) (runOps (toyEnvSha id) [.acc3 [0] 1 (b64Encode (wireBytes (.sg3 [c])))] t.reg) [0]).1 =
        .err .verifyFailed := by
    intro c hc hne
    have hparse : parseWireMsg (wireBytes (.sg3 [c])) = some (.sg3 [c]) := by
      refine parse_wireBytes _ ?_ ?_
      · simp [Content.parts]
      · have := encField_length_le 1 [c]
        have h3 : (Content.sg3 [c]).marshal = encField 1 [c] := rfl
        have p64 : 21 < 2 ^ 64 := by norm_num
        rw [h3]
        simp only [List.length_singleton] at this
        omega
    obtain ⟨q, q1, q2⟩ : ∃ q, runOps (toyEnvSha id) [.acc3 [0] 1 (b64Encode (wireBytes (.sg3 [c])))] t.reg [0] = some q ∧
        q.m3.getD 1 [] = wireBytes (.sg3 [c]) := by
      refine ⟨{ p with m3 := p.m3.set 1 (wireBytes (.sg3 [c])) }, ?_, by
        show (p.m3.set 1 _).getD 1 [] = _
        rw [Keygen.getD_set, if_pos ⟨rfl, by omega⟩]⟩
      show (OnSignRound3MsgAccept t.reg [0] 1 (b64Encode (wireBytes (.sg3 [c])))).2 [0] = _
      unfold OnSignRound3MsgAccept
      have p1' : t.reg [0] = some p := p1
      rw [withParty_some _ _ p1']
      simp only
      rw [set_same]
      unfold accept
      rw [b64_round_trip]
      simp only
      rw [if_pos ⟨by decide, by rw [hl]; decide⟩, hparse]
      simp only
      rw [if_pos (show (Content.sg3 [c]).kind = Kind.sg3 from rfl)]
      rfl
    refine (C83_one_wrong_share H t t1.run 0 1 (by decide) (by decide) (by decide) t2 _ ?_ q q1 s2 hr2 _ hsent ?_ [c] good ?_ hgood).mpr hne
    · intro op ho _
      rw [List.mem_singleton.mp ho]; rfl
    · intro j hj h0 h1
      have : j < 2 := hj
      omega
    · rw [q2]; exact hparse
  by_cases h1 : spec.shareValue [1] % Ed.ord ≠ spec.shareValue good % Ed.ord
  · exact ⟨t, 1, t1.run, t2, key 1 (by decide) h1⟩
  · push Not at h1
    refine ⟨t, 2, t1.run, t2, key 2 (by decide) ?_⟩
    rw [← h1, show spec.shareValue [2] = 2 by decide, show spec.shareValue [1] = 1 by decide, Nat.mod_eq_of_lt ord_gt,
      Nat.mod_eq_of_lt (lt_trans (by decide) ord_gt)]
    decide

end Tss.Onsign
