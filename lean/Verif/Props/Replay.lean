import Verif.Props.NonceReuse
/-! C79: messages of one signing session are accepted by another one. -/
namespace Tss.Onsign
open Tss Text Wire RangeProofs
open _root_.Tss.Keygen (forJ)

variable {e : Env} {S S2 : Session}

/-- Run calls one after the other: every one of them succeeds. -/
def spec.AllOk (e : Env) : List Op → Reg → Prop
  | [], _ => True
  | op :: t, r => (∃ w, (op.run e r).1 = .res (.ok w)) ∧ spec.AllOk e t (op.run e r).2

/-- What the client of party `i` (registered under `key`, one of `n`) does after its first round: it hands over what
`rec` holds as the messages of every other party, and runs round 2. `draws` is what round 2 draws. -/
def spec.replay (key : Bytes) (n i : Nat) (rec : Mk → Nat → Bytes) (draws : Nat → Draws) : List Op :=
  let peers := (List.range n).filter (· ≠ i)
  (peers.map fun (j : Nat) => Op.acc1 key (j : Int) (b64Encode (rec .a j))) ++
  (peers.map fun (j : Nat) => Op.acc1 key (j : Int) (b64Encode (rec .b j))) ++
  ([Op.exec2 key draws] ++
  (peers.map fun (j : Nat) => Op.acc2 key (j : Int) (b64Encode (rec .two j))))

/-- session `S2`, with the other parties' draws of `S` -/
def mixed (S S2 : Session) (i : Nat) : Session :=
  S2.redraw (fun j => if j = i then S2.rnd j else S.rnd j) (fun j => if j = i then S2.draws j else S.draws j) S2.zs

theorem refresh_agree (H : Honest e S) (H2 : Honest e S2) (hn : S2.n = S.n) {i : Nat} (hi : i < S.n)
    (hre : (S2.args i).refresh = (S.args i).refresh) (j : Nat) (hj : j < S.n) :
    H2.N j = H.N j ∧ H2.pn j = H.pn j ∧ H2.ps j = H.ps j ∧ H2.pt j = H.pt j := by
  obtain ⟨b, h1, -, h2⟩ := H.refresh i hi
  obtain ⟨b', h1', -, h2'⟩ := H2.refresh i (by omega)
  rw [hre, h1, Option.some.injEq] at h1'
  subst h1'
  obtain ⟨a1, a2, a3, a4⟩ := h2 j hj
  obtain ⟨b1, b2, b3, b4⟩ := h2' j (by omega)
  exact ⟨b1.trans a1.symm, b2.trans a2.symm, b3.trans a3.symm, b4.trans a4.symm⟩

/-- the mixed session is honest -/
theorem Honest.mix (H : Honest e S) (H2 : Honest e S2) (hn : S2.n = S.n) {i : Nat} (hi : i < S.n)
    (hre : (S2.args i).refresh = (S.args i).refresh) : ∃ H3 : Honest e (mixed S S2 i), H3.N = H2.N ∧ H3.pn = H2.pn ∧
      H3.ps = H2.ps ∧ H3.pt = H2.pt := by
  have ag := refresh_agree H H2 hn hi hre
  have hr1 : (mixed S S2 i).rnd i = S2.rnd i := if_pos rfl
  have hd1 : (mixed S S2 i).draws i = S2.draws i := if_pos rfl
  have hr2 : ∀ j, j ≠ i → (mixed S S2 i).rnd j = S.rnd j := fun j hj => if_neg hj
  have hd2 : ∀ j, j ≠ i → (mixed S S2 i).draws j = S.draws j := fun j hj => if_neg hj
  have hN : (mixed S S2 i).n = S2.n := rfl
  refine ⟨{
    pIDs := H2.pIDs
    ids := H2.ids
    d := H2.d
    kv := H2.kv
    code := H2.code
    x0 := H2.x0
    grp := H2.grp
    path := H2.path
    child := H2.child
    kb := H2.kb
    msg := H2.msg
    N := H2.N
    pn := H2.pn
    ps := H2.ps
    pt := H2.pt
    keyInj := H2.keyInj
    count := H2.count
    idsOk := H2.idsOk
    idKey := H2.idKey
    idInj := H2.idInj
    keyData := H2.keyData
    ks := H2.ks
    priv := H2.priv
    pub := H2.pub
    codes := H2.codes
    group := H2.group
    groupOn := H2.groupOn
    pathLen := H2.pathLen
    soft := H2.soft
    derive := H2.derive
    refresh := H2.refresh
    message := H2.message
    moduli := H2.moduli
    nonce := ?_
    encUnit := ?_
    logUnit := ?_
    encFresh := ?_
    logFresh := ?_
    zs := H2.zs
    json := H2.json }, rfl, rfl, rfl, rfl⟩
  · intro a ha
    by_cases h : a = i
    · subst h; rw [hr1]; exact H2.nonce a ha
    · rw [hr2 a h, (ag a (by omega)).1]; exact H.nonce a (by omega)
  · intro a b ha hb
    by_cases h : a = i
    · subst h; rw [hr1]; exact H2.encUnit a b ha hb
    · rw [hr2 a h, (ag a (by omega)).1]; exact H.encUnit a b (by omega) (by omega)
  · intro a b ha hb
    by_cases h : a = i
    · subst h; rw [hr1, hd1]; exact H2.logUnit a b ha hb
    · rw [hr2 a h, hd2 a h, (ag a (by omega)).1]; exact H.logUnit a b (by omega) (by omega)
  · intro a b K ha hb
    by_cases h : a = i
    · subst h; rw [hr1]; exact H2.encFresh a b K ha hb
    · obtain ⟨c1, c2, c3, c4⟩ := ag b (by omega)
      rw [hr2 a h, (ag a (by omega)).1, c2, c3, c4]; exact H.encFresh a b K (by omega) (by omega)
  · intro a b K ha hb
    by_cases h : a = i
    · subst h; rw [hr1, hd1]; exact H2.logFresh a b K ha hb
    · obtain ⟨c1, c2, c3, c4⟩ := ag b (by omega)
      rw [hr2 a h, hd2 a h, (ag a (by omega)).1, c2, c3, c4]; exact H.logFresh a b K (by omega) (by omega)

/-- the Paillier moduli and ring-Pedersen parameters the parties use are those of the refresh data -/
theorem Honest.facts_pks (H : Honest e S) {F : Facts e S} (hF : F.keys = H.keys) (j : Nat) (hj : j < S.n) :
    F.N j = H.N j ∧ F.ped j = ((H.pn j : Int), (H.ps j : Int), (H.pt j : Int)) := by
  have a := F.paillier j j hj hj
  have b := F.peds j j hj hj
  rw [hF] at a b
  unfold Honest.keys at a b
  simp [hj] at a b
  exact ⟨a.symm, b.symm⟩

/-- the honest messages of `j` for `i` are the same in both sessions -/
theorem cont_agree {S3 : Session} {F : Facts e S} {F3 : Facts e S3} {i j : Nat} (hn : S3.n = S.n) (hi : i < S.n) (hj : j < S.n)
    (hr : S3.rnd j = S.rnd j) (hd : S3.draws j = S.draws j) (hN : F3.N j = F.N j) (hp : F3.ped i = F.ped i) (mk : Mk)
    (hmk : mk ≠ .three) : F3.cont mk j i = F.cont mk j i := by
  have hK : F3.K j = F.K j := by
    have c := F.cipher j hj
    have c' := F3.cipher j (by omega)
    rw [hN, hr, c] at c'
    exact (Option.some.inj c').symm
  cases mk
  · simp only [GFacts.cont]; rw [hK]
  · simp only [GFacts.cont]
    have c := F.encNew j i hj hi
    have c' := F3.encNew j i (by omega) (by omega)
    rw [hN, hr, hK, hp, c] at c'
    rw [Res.ok.inj c']
  · simp only [GFacts.cont, GFacts.R]
    have c := F.logNew j i hj hi
    have c' := F3.logNew j i (by omega) (by omega)
    rw [hN, hr, hK, hp, hd, c] at c'
    rw [Res.ok.inj c', hr]
  · exact absurd rfl hmk

theorem allOk_append : ∀ (a b : List Op) (r : Reg), spec.AllOk e a r → spec.AllOk e b (runOps e a r) → spec.AllOk e (a ++ b) r
  | [], _, _, _, h => h
  | _ :: t, b, _, h, h' => ⟨h.1, allOk_append t b _ h.2 h'⟩

theorem Mk.op_out (mk : Mk) (key : Bytes) (f : Int) (m : Bytes) (r : Reg) (h : (mk.accept r key f m).1 = .ok ()) :
    ((mk.op key f m).run e r).1 = .res (.ok []) := by
  cases mk <;> (show Out.res (noData _) = _) <;> (first | (rw [show (OnSignRound1MsgAccept r key f m).1 = .ok () from h]; rfl) |
    (rw [show (OnSignRound2MsgAccept r key f m).1 = .ok () from h]; rfl) |
    (rw [show (OnSignRound3MsgAccept r key f m).1 = .ok () from h]; rfl))

theorem deliver_ok {F : Facts e S} {i k : Nat} (mk : Mk) (hi : i < S.n) : ∀ (l : List Nat) (r : Reg) (p : Party)
    (got : Mk → Nat → Bool), (∀ j ∈ l, j < S.n) → r (S.key i) = some p → PI F.toGFacts i k got p →
    spec.AllOk e (l.map fun (j : Nat) => mk.op (S.key i) (j : Int) (b64Encode (wireBytes (F.cont mk j i)))) r
  | [], _, _, _, _, _, _ => trivial
  | j :: t, r, p, got, hl, hp, h => by
    have hj := hl j (by simp)
    have h1 := accept_honest h mk r hi hj hp
    have h2 := h.store (j := j) (got' := fun mk' j' => got mk' j' || (decide (mk' = mk) && decide (j' = j))) mk
      (by intro mk' j' hh; simpa using hh) hj
    refine ⟨⟨[], Mk.op_out _ _ _ _ _ (by rw [h1])⟩, ?_⟩
    rw [Mk.op_run, h1]
    exact deliver_ok mk hi t _ _ _ (fun a ha => hl a (by simp [ha])) (set_same _ _ _) h2

theorem replay_reaches {F : Facts e S} {i : Nat} {r : Reg} {p : Party} (hi : i < S.n) (hp : r (S.key i) = some p)
    (h : PI F.toGFacts i 2 (fun _ _ => false) p) (rec : Mk → Nat → Bytes)
    (hrec : ∀ mk, mk ≠ .three → ∀ j, j < S.n → j ≠ i → rec mk j = wireBytes (F.cont mk j i)) :
    spec.AllOk e (spec.replay (S.key i) S.n i rec (S.draws i)) r ∧
    ∃ r', OnsignRound3Exec e (S.zs i) (runOps e (spec.replay (S.key i) S.n i rec (S.draws i)) r) (S.key i) =
      (.ok (wireBytes (.sg3 (intBytes (F.sg i)))), r') := by
  unfold spec.replay
  have hm : ∀ j ∈ (List.range S.n).filter (· ≠ i), j < S.n ∧ j ≠ i := by
    intro j hj
    simpa using hj
  have hlt : ∀ j ∈ (List.range S.n).filter (· ≠ i), j < S.n := fun j hj => (hm j hj).1
  have hmem : ∀ j, j < S.n → j ≠ i → j ∈ (List.range S.n).filter (· ≠ i) := by
    intro j h1 h2
    simp [h1, h2]
  simp only
  rw [show ((List.range S.n).filter (· ≠ i)).map (fun (j : Nat) => Op.acc1 (S.key i) (j : Int) (b64Encode (rec .a j))) =
    ((List.range S.n).filter (· ≠ i)).map (fun (j : Nat) => Mk.a.op (S.key i) (j : Int) (b64Encode (wireBytes (F.cont .a j i)))) from
      List.map_congr_left fun j hj => by rw [hrec .a (by decide) j (hm j hj).1 (hm j hj).2]; rfl,
    show ((List.range S.n).filter (· ≠ i)).map (fun (j : Nat) => Op.acc1 (S.key i) (j : Int) (b64Encode (rec .b j))) =
    ((List.range S.n).filter (· ≠ i)).map (fun (j : Nat) => Mk.b.op (S.key i) (j : Int) (b64Encode (wireBytes (F.cont .b j i)))) from
      List.map_congr_left fun j hj => by rw [hrec .b (by decide) j (hm j hj).1 (hm j hj).2]; rfl,
    show ((List.range S.n).filter (· ≠ i)).map (fun (j : Nat) => Op.acc2 (S.key i) (j : Int) (b64Encode (rec .two j))) =
    ((List.range S.n).filter (· ≠ i)).map (fun (j : Nat) => Mk.two.op (S.key i) (j : Int) (b64Encode (wireBytes (F.cont .two j i)))) from
      List.map_congr_left fun j hj => by rw [hrec .two (by decide) j (hm j hj).1 (hm j hj).2]; rfl]
  clear hrec
  generalize (List.range S.n).filter (· ≠ i) = peers at *
  rw [runOps_append, runOps_append, runOps_append]
  have o1 := deliver_ok (F := F) .a hi peers r p _ hlt hp h
  obtain ⟨p1, a1, b1⟩ := deliver_all (F := F) .a hi peers r p _ hlt hp h
  have o2 := deliver_ok (F := F) .b hi peers _ p1 _ hlt a1 b1
  obtain ⟨p2, a2, b2⟩ := deliver_all (F := F) .b hi peers _ p1 _ hlt a1 b1
  have o12 := allOk_append _ _ _ o1 o2
  have e12 := runOps_append (e := e) (peers.map fun (j : Nat) => Mk.a.op (S.key i) (j : Int) (b64Encode (wireBytes (F.cont .a j i))))
    (peers.map fun (j : Nat) => Mk.b.op (S.key i) (j : Int) (b64Encode (wireBytes (F.cont .b j i)))) r
  generalize runOps e (peers.map fun (j : Nat) => Mk.b.op (S.key i) (j : Int) (b64Encode (wireBytes (F.cont .b j i)))) _ = r2 at a2 e12 ⊢
  obtain ⟨p3, a3, b3⟩ := b2.exec2 hi (by intro j hj hji; simp [hmem j hj hji]) (by intro j hj hji; simp [hmem j hj hji])
  have a3' : (Op.exec2 (S.key i) (S.draws i)).run e r2 = (.res (.ok []), r2.set (S.key i) (some p3)) := by
    show (Out.res (noData (OnsignRound2Exec e (S.draws i) r2 (S.key i)).1), (OnsignRound2Exec e (S.draws i) r2 (S.key i)).2) = _
    unfold OnsignRound2Exec
    rw [withParty_some _ _ a2, a3]
    rfl
  have a3'' : runOps e [Op.exec2 (S.key i) (S.draws i)] r2 = r2.set (S.key i) (some p3) := by
    show ((Op.exec2 (S.key i) (S.draws i)).run e r2).2 = _
    rw [a3']
  have o4 := deliver_ok (F := F) .two hi peers (r2.set (S.key i) (some p3)) p3 _ hlt (set_same _ _ _) b3
  obtain ⟨p4, a4, b4⟩ := deliver_all (F := F) .two hi peers _ p3 _ hlt (set_same _ _ _) b3
  obtain ⟨p5, a5, -⟩ := b4.exec3 hi (by intro j hj hji; simp [hmem j hj hji])
  constructor
  · refine allOk_append _ _ _ o12 ?_
    rw [e12]
    refine allOk_append _ _ _ ⟨⟨[], by rw [a3']⟩, trivial⟩ ?_
    rw [a3'']
    exact o4
  · rw [a3'']
    generalize runOps e _ (r2.set (S.key i) (some p3)) = r4 at a4 ⊢
    refine ⟨r4.set (S.key i) (some p5), ?_⟩
    unfold OnsignRound3Exec
    rw [withParty_some _ _ a4, a5]
    rfl

/-- C79. Messages are not bound to a session. Take an honest session `S` and what was sent in it to party `i`. In any
other session `S2` with the same Paillier data – any other message, derivation path, key-generation data, parties'
registration keys – party `i` has run its first round. It accepts the recorded messages of `S`, its second round
succeeds on them, and its third round answers for the message of `S2` with the nonce points of `S`. -/
theorem C79_replay (H : Honest e S) (H2 : Honest e S2) (hn : S2.n = S.n) (i : Nat) (hi : i < S.n)
    (hre : (S2.args i).refresh = (S.args i).refresh) (s s2 : Net) (hr : Run e S s) (hr2 : Run e S2 s2) (h2 : 2 ≤ s2.stage i)
    (rec : Mk → Nat → Bytes) (hrec : ∀ mk, mk ≠ .three → ∀ j, j < S.n → j ≠ i → s.sent mk j i = some (rec mk j)) :
    spec.AllOk e (spec.replay (S2.key i) S2.n i rec (S2.draws i)) s2.reg ∧
    ∃ (R A : Ed.Point) (r' : Reg),
      R = ((List.range S2.n).map fun j => if j = i then (S2.rnd j).k else (S.rnd j).k).sum • Ed.B ∧
      A = ((List.range S2.n).map fun j => (beNat (H2.child j) : Int)).sum • Ed.B ∧
      OnsignRound3Exec e (S2.zs i) (runOps e (spec.replay (S2.key i) S2.n i rec (S2.draws i)) s2.reg) (S2.key i) =
        (.ok (wireBytes (.sg3 (intBytes (((spec.challenge e.sha512 (Ed.encode R) (Ed.encode A) (H2.msg.dropWhile (· = 0)) *
          beNat (H2.child i) + (S2.rnd i).k.natAbs) % Ed.ord : Nat) : Int)))), r') := by
  obtain ⟨H3, n1, n2, n3, n4⟩ := H.mix H2 hn hi hre
  obtain ⟨F, -, f2, -, -⟩ := H.facts
  obtain ⟨F2, -, g2, g3, g4⟩ := H2.facts
  obtain ⟨F3, -, k2, -, -⟩ := H3.facts
  have hs := run_inv F.toGFacts hr
  have hs2 := run_inv F2.toGFacts hr2
  have hi2 : i < S2.n := by omega
  have hi3 : i < (mixed S S2 i).n := hi2
  obtain ⟨p, hp, hpi⟩ := hs2.stage_ne hi2 (by omega)
  have ag := refresh_agree H H2 hn hi hre
  have hrr : (mixed S S2 i).rnd i = S2.rnd i := if_pos rfl
  have hrec' : ∀ mk, mk ≠ .three → ∀ j, j < (mixed S S2 i).n → j ≠ i → rec mk j = wireBytes (F3.cont mk j i) := by
    intro mk hmk j hj hji
    have hj2 : j < S2.n := hj
    have hj1 : j < S.n := by omega
    obtain ⟨c1, c2⟩ := H.facts_pks f2 j hj1
    obtain ⟨d1, d2⟩ := H3.facts_pks k2 j hj
    obtain ⟨-, c3⟩ := H.facts_pks f2 i hi
    obtain ⟨-, d3⟩ := H3.facts_pks k2 i hi3
    obtain ⟨t1, t2, t3⟩ := (ag i hi).2
    rw [cont_agree (F := F) (F3 := F3) hn hi hj1 (if_neg hji) (if_neg hji) (by rw [d1, c1, n1, (ag j hj1).1])
      (by rw [d3, c3, n2, n3, n4, t1, t2, t3]) mk hmk]
    exact hs.sent mk j i _ hj1 hi (hrec mk hmk j hj1 hji)
  obtain ⟨o, r', hr3⟩ := replay_reaches (F := F3) (i := i) (r := s2.reg) (p := p) hi3 hp
    (PI.redraw (F' := F3) hpi h2 hi2 (if_pos rfl)) rec hrec'
  have hd : (mixed S S2 i).draws i = S2.draws i := if_pos rfl
  rw [hd] at o hr3
  refine ⟨o, F3.Rtot, F2.A, r', ?_, by rw [F2.A_eq, g4]; rfl, ?_⟩
  · unfold GFacts.Rtot
    congr 3
    funext j
    show (if j = i then S2.rnd j else S.rnd j).k = _
    split <;> rfl
  · have hA' : F3.A = F2.A := by
      rw [F3.A_eq, F2.A_eq]
      congr 2
      exact List.map_congr_left fun j hj => (facts_agree F2 F3 j (List.mem_range.mp hj)).2.2.2.1
    obtain ⟨-, m0, -, x', -⟩ := facts_agree F2 F3 i hi2
    have m' : F3.m = F2.m := m0
    have hx : (F2.x i).natAbs = beNat (H2.child i) := by rw [g4]; rfl
    have e1 : F3.sg i = (spec.challenge e.sha512 (Ed.encode F3.Rtot) (Ed.encode F2.A) (H2.msg.dropWhile (· = 0)) * beNat (H2.child i) +
        (S2.rnd i).k.natAbs) % Ed.ord := by
      rw [F3.sg_eq hi3, F3.lam_eq]
      rw [x', m', hA', hrr, hx, g3, C56_signed_bytes]
      rfl
    rw [← e1]
    exact hr3

end Tss.Onsign
