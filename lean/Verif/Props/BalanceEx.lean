import Verif.Props.Balance
import Verif.Props.OnsignHonestEx
/-! C119: honest signers meet the hypotheses, and the two of the toy session release a signature. -/
namespace Tss.Onsign
open Tss Text Wire RangeProofs

variable {e : Env} {S : Session}

/-- party `i` alone, handed the honest messages, comes to its third round -/
theorem ready (F : Facts e S) {i : Nat} (hi : i < S.n) : ∃ (r : Reg) (p : Party) (got : Mk → Nat → Bool), Reach e r ∧
    r (S.key i) = some p ∧ PI F.toGFacts i 3 got p ∧ ∀ j, j < S.n → got .two j = true := by
  obtain ⟨r0, hr0⟩ : ∃ r0 : Reg, r0 = fun _ => none := ⟨_, rfl⟩
  have R0 : Reach e r0 := by rw [hr0]; exact .init
  have hc := F.create i hi r0
  have R1 : Reach e (r0.set (S.key i) (some (freshParty S.n i F.ids (F.keys i) (F.mOf i)))) := by
    have := Reach.step (Op.new (S.key i) (S.args i)) R0
    have h1 : ((Op.new (S.key i) (S.args i)).run e r0).2 = (NewLocalParty e r0 (S.key i) (S.args i)).2 := rfl
    rw [h1, hc] at this
    exact this
  obtain ⟨p1, a1, b1⟩ := (PI.fresh (F := F.toGFacts) i (fun _ _ => false) (fun _ _ => rfl)).exec1 hi
  generalize hr1 : r0.set (S.key i) (some (freshParty S.n i F.ids (F.keys i) (F.mOf i))) = r1 at R1
  have hk1 : r1 (S.key i) = some (freshParty S.n i F.ids (F.keys i) (F.mOf i)) := by rw [← hr1, set_same]
  have R2 : Reach e (r1.set (S.key i) (some p1)) := by
    have := Reach.step (Op.exec1 (S.key i) (S.rnd i)) R1
    have h1 : ((Op.exec1 (S.key i) (S.rnd i)).run e r1).2 = (OnSignRound1Exec e (S.rnd i) r1 (S.key i)).2 := rfl
    rw [h1] at this
    unfold OnSignRound1Exec at this
    rw [withParty_some _ _ hk1, a1] at this
    exact this
  generalize hr2 : r1.set (S.key i) (some p1) = r2 at R2
  have hk2 : r2 (S.key i) = some p1 := by rw [← hr2, set_same]
  obtain ⟨p2, a2, b2⟩ := deliver_all (F := F) .a hi (List.range S.n) r2 p1 _ (fun j hj => List.mem_range.mp hj) hk2 b1
  have R3 := reach_runOps ((List.range S.n).map fun (j : Nat) => Mk.a.op (S.key i) (j : Int) (b64Encode (wireBytes (F.cont .a j i)))) R2
  generalize runOps e ((List.range S.n).map fun (j : Nat) => Mk.a.op (S.key i) (j : Int) (b64Encode (wireBytes (F.cont .a j i)))) r2 = r3 at a2 R3
  obtain ⟨p3, a3, b3⟩ := deliver_all (F := F) .b hi (List.range S.n) r3 p2 _ (fun j hj => List.mem_range.mp hj) a2 b2
  have R4 := reach_runOps ((List.range S.n).map fun (j : Nat) => Mk.b.op (S.key i) (j : Int) (b64Encode (wireBytes (F.cont .b j i)))) R3
  generalize runOps e ((List.range S.n).map fun (j : Nat) => Mk.b.op (S.key i) (j : Int) (b64Encode (wireBytes (F.cont .b j i)))) r3 = r4 at a3 R4
  obtain ⟨p4, a4, b4⟩ := b3.exec2 hi (by intro j hj _; simp [hj]) (by intro j hj _; simp [hj])
  have R5 : Reach e (r4.set (S.key i) (some p4)) := by
    have := Reach.step (Op.exec2 (S.key i) (S.draws i)) R4
    have h1 : ((Op.exec2 (S.key i) (S.draws i)).run e r4).2 = (OnsignRound2Exec e (S.draws i) r4 (S.key i)).2 := rfl
    rw [h1] at this
    unfold OnsignRound2Exec at this
    rw [withParty_some _ _ a3, a4] at this
    exact this
  obtain ⟨p5, a5, b5⟩ := deliver_all (F := F) .two hi (List.range S.n) _ p4 _ (fun j hj => List.mem_range.mp hj) (set_same r4 _ _) b4
  have R6 := reach_runOps ((List.range S.n).map fun (j : Nat) => Mk.two.op (S.key i) (j : Int) (b64Encode (wireBytes (F.cont .two j i)))) R5
  exact ⟨_, p5, _, R6, a5, b5, fun j hj => by simp [hj]⟩

/-- what an honest signer holds before its third round -/
theorem ready_opens (H : Honest e S) {F : Facts e S} (f2 : F.keys = H.keys) {i : Nat} (hi : i < S.n) {p : Party}
    {got : Mk → Nat → Bool} (h : PI F.toGFacts i 3 got p) (hg : ∀ j, j < S.n → got .two j = true) {inv : Int}
    (hinv : 8 * inv ≡ 1 [ZMOD Ed.ord]) : spec.Opens inv p (fun j => (S.rnd j).k) H.x := by
  obtain ⟨ep, hkeys⟩ := h.keys
  have hn : p.ids.length = S.n := by rw [h.ids, F.lids]
  refine ⟨?_, ?_⟩
  · rw [hkeys, hn]
    simp only
    rw [f2]; rfl
  · intro j hj _
    rw [hn] at hj
    have hm2 : parseWireMsg (p.m2.getD j []) =
        some (.sg2 (intBytes (F.R j).x) (intBytes (F.R j).y) (logMarshal (F.log j i))) := by
      have := h.recv .two j (hg j hj)
      rw [show p.m2 = Mk.two.slots p from rfl, this, F.parse .two j i hj hi]; rfl
    obtain ⟨c1, -, c3, -⟩ := coords_small ((S.rnd j).k • Ed.B)
    have e1 : ((beNat (intBytes (F.R j).x) : Nat) : Int) = (F.R j).x := Keygen.beNat_coord c1
    have e2 : ((beNat (intBytes (F.R j).y) : Nat) : Int) = (F.R j).y := Keygen.beNat_coord c3
    unfold spec.noncePoint
    rw [hm2]
    simp only
    rw [e1, e2, show Ed.toPt (F.R j).x (F.R j).y = Ed.lawful.val (Ed.lawful.pt ((S.rnd j).k • Ed.B)) from rfl, Ed.lawful.val_pt,
      ← mul_smul, ← mul_smul, zsmul_B_iff]
    have := hinv.mul_right (S.rnd j).k
    rw [one_mul] at this
    rw [mul_comm inv 8]
    exact this

theorem three_quiet (key : Bytes) (l : List Nat) (m : Nat → Bytes) :
    spec.Quiet key (l.map fun (j : Nat) => Mk.three.op key (j : Int) (m j)) := by
  intro op hop _
  obtain ⟨j, -, rfl⟩ := List.mem_map.mp hop
  rfl

/-- C119, the hypotheses are met: every signer of an honest session, alone and handed the honest messages of the others, comes to
a third round, then to a state where it holds what the third rounds of the others return (`W`), and then it releases a signature. -/
theorem C119_case_honest (H : Honest e S) (hz : ∀ i j, Ed.fe (S.zs i j) % Ed.P ≠ 0) {inv : Int} (hinv : 8 * inv ≡ 1 [ZMOD Ed.ord]) :
    (∀ d, (e.jsonSig d).isSome) ∧ ∃ W : Nat → Bytes, ∀ i, i < S.n → ∃ (r r1 : Reg) (p q : Party) (ops : List Op) (b : Nat → Bytes),
      Reach e r ∧ r (S.key i) = some p ∧ p.index = i ∧ p.ids.length = S.n ∧ p.keys.privXi = some (H.x i) ∧
      (0 ≤ H.x i ∧ H.x i < Ed.ord) ∧ p.k = some (S.rnd i).k ∧ (0 ≤ (S.rnd i).k ∧ (S.rnd i).k < 2 ^ 256) ∧
      (∀ j, Ed.fe (S.zs i j) % Ed.P ≠ 0) ∧ OnsignRound3Exec e (S.zs i) r (S.key i) = (.ok (W i), r1) ∧
      spec.Opens inv p (fun j => (S.rnd j).k) H.x ∧ spec.Quiet (S.key i) ops ∧ runOps e ops r1 (S.key i) = some q ∧
      (∀ l, l < S.n → l ≠ i → q.m3.getD l [] = W l) ∧
      (∀ j, j < S.n → j ≠ i → parseWireMsg (q.m3.getD j []) = some (.sg3 (b j))) ∧
      ∃ out, (OnsignFinalExec e (runOps e ops r1) (S.key i)).1 = .ok out := by
  obtain ⟨F, f1, f2, f3, f4⟩ := H.facts
  refine ⟨F.json, fun j => wireBytes (.sg3 (intBytes (F.sg j))), fun i hi => ?_⟩
  obtain ⟨r, p, got, h1, h2, h3, h4⟩ := ready F hi
  obtain ⟨p1, a1, b1⟩ := h3.exec3 hi (fun j hj _ => h4 j hj)
  obtain ⟨q, a2, b2⟩ := deliver_all (F := F) .three hi (List.range S.n) (r.set (S.key i) (some p1)) p1 _
    (fun j hj => List.mem_range.mp hj) (set_same r _ _) b1
  obtain ⟨ep, hkeys⟩ := h3.keys
  obtain ⟨k0, -, k1⟩ := F.kr i hi
  have hq : ∀ l, l < S.n → q.m3.getD l [] = wireBytes (.sg3 (intBytes (F.sg l))) := by
    intro l hl
    have := b2.recv .three l (by simp [hl])
    exact this
  have hqp : ∀ l, l < S.n → parseWireMsg (q.m3.getD l []) = some (.sg3 (intBytes (F.sg l))) := by
    intro l hl
    rw [hq l hl]; exact F.parse .three l i hl hi
  refine ⟨r, r.set (S.key i) (some p1), p, q, _, fun j => intBytes (F.sg j), h1, h2, h3.index, by rw [h3.ids, F.lids], ?_, ⟨?_, ?_⟩,
    (h3.s1 (by omega)).2.1, ⟨k0, k1⟩, hz i, ?_, ready_opens H f2 hi h3 h4 hinv, three_quiet _ (List.range S.n) _, a2,
    fun l hl _ => hq l hl, fun j hj _ => hqp j hj, ?_⟩
  · rw [hkeys]; simp only; rw [f2]; rfl
  · exact Int.natCast_nonneg _
  · exact H.x_lt i hi
  · unfold OnsignRound3Exec
    rw [withParty_some _ _ h2, a1]
    rfl
  · unfold OnsignFinalExec
    rw [withParty_some _ _ a2]
    have hf := final_outcome hi b2 KeepsAll.refl' (fun j => intBytes (F.sg j)) (fun j hj _ => hqp j hj)
    refine ⟨_, hf.trans (if_pos ?_)⟩
    congr 1
    unfold spec.sumOthers
    congr 1
    refine List.map_congr_left fun j _ => ?_
    split
    · rfl
    · exact (shareValue_sent (F.sg_lt j)).2

/-- The two signers of the toy session: signer 0 finishes with the answer of signer 1, so they answered the same challenge. -/
example (sha512 : Bytes → Bytes) (k : Nat → Int) (hk : ∀ i, 0 ≤ k i ∧ k i < 15) : ∃ (H : Honest (toyEnvSha sha512) (toySessionK k)) (c : Nat)
    (p p' : Party), p.index = 0 ∧ p'.index = 1 ∧ c = spec.answered sha512 p (k 0) k H.x ∧
      (c = spec.answered sha512 p' (k 1) k H.x ∨ H.x 1 = 0) := by
  obtain ⟨H⟩ := toyHonestK sha512 k hk
  obtain ⟨inv, hinv, C⟩ := C119_divided_gives_share_away
  obtain ⟨hj, W, hW⟩ := C119_case_honest H (fun _ _ => by show Ed.fe 1 % Ed.P ≠ 0; decide +kernel) hinv
  obtain ⟨r, r1, p, q, ops, b, a1, a2, a3, a4, a5, a6, a7, a8, a9, a10, a11, a12, a13, a14, a15, a16⟩ := hW 0 (by show 0 < 2; omega)
  obtain ⟨r', r1', p', q', ops', b', c1, c2, c3, c4, c5, c6, c7, c8, c9, c10, c11, -⟩ := hW 1 (by show 1 < 2; omega)
  have hord : (Ed.ord : Int) < 2 ^ 256 := by decide +kernel
  have h2 : p.ids.length = 2 := a4
  have := C hj a1 a2 a5 ⟨a6.1, lt_trans a6.2 hord⟩ a7 a8 a9 a10 a11 (by rw [a3]) rfl c1 c2 c5 c6 c7 c8 c9 c10 c11 rfl
    (by rw [c3, h2]; omega) (by rw [c3, a3]; omega) (by rw [c3]) (by rw [c3]) a12 a13 (by rw [c3]; exact a14 1 (by show 1 < 2; omega) (by omega))
    (by rw [a3, h2]; exact a15) a16
  exact ⟨H, _, p, p', a3, c3, rfl, this.2.2 h2⟩

end Tss.Onsign
