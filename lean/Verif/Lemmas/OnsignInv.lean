import Verif.Lemmas.OnsignRounds
import Verif.Lemmas.KeygenRounds
import Verif.Lemmas.EdVerify
import Verif.Lemmas.Ckd
import Verif.Props.Ed25519
/-! What every reachable signing party satisfies. -/
namespace Tss.Onsign
open Tss Text Wire RangeProofs
open _root_.Tss.Keygen (forJ forJ_cons_ok forJ_inv getD_set)

/-- A point on the curve in canonical coordinates. -/
def Canon (X : ECPoint) : Prop := ∃ g : Ed.Point, X = Ed.lawful.pt g

theorem affine_canon (E : Ed.Ext) (h : Ed.curve.isOnCurve E.affine.1 E.affine.2 = true) :
    Canon ⟨E.affine.1, E.affine.2⟩ := by
  have l1 := Ed.feMul_lt E.X (Ed.feInvert E.Z)
  have l2 := Ed.feMul_lt E.Y (Ed.feInvert E.Z)
  have hP := Ed.P_lt
  refine ⟨Ed.toPt E.affine.1 E.affine.2, ?_⟩
  have key : ∀ n : Nat, n < Ed.P → (((Ed.fe (n : Int) : Nat) : Ed.F).val : Int) = n := by
    intro n hn
    rw [Ed.fe_eq (by omega) (by omega), Int.toNat_natCast, ZMod.val_natCast, Nat.mod_eq_of_lt hn]
  show _ = (⟨(Ed.coords (Ed.toPt E.affine.1 E.affine.2)).1, (Ed.coords (Ed.toPt E.affine.1 E.affine.2)).2⟩ : ECPoint)
  unfold Ed.coords
  rw [Ed.toPt_x h, Ed.toPt_y h]
  simp only [Ed.Ext.affine]
  rw [key _ l1, key _ l2]

theorem add_canon {X Y Z : ECPoint} (h : ECPoint.add Ed.curve X Y = some Z) : Canon Z := by
  unfold ECPoint.add at h
  have e : Ed.curve.add X.x X.y Y.x Y.y = ((Ed.Ext.ofXY X.x X.y).add (Ed.Ext.ofXY Y.x Y.y)).affine := rfl
  rw [e] at h
  generalize (Ed.Ext.ofXY X.x X.y).add (Ed.Ext.ofXY Y.x Y.y) = E at h
  obtain ⟨h1, h2⟩ := PLawful.new_some h
  rw [h1] at h2 ⊢
  exact affine_canon _ h2

theorem deriveChildPub_canon (E : Ckd.Env) (hE : E.curve = Ed.curve) (i : Nat) (pk : Ckd.KeyD) (r : Int × Ckd.KeyD)
    (h : Ckd.deriveChildPubKeyD E i pk = .ok r) : Canon r.2.pub := by
  suffices hs : ∃ X, ECPoint.add E.curve pk.pub X = some r.2.pub by
    obtain ⟨X, hX⟩ := hs
    rw [hE] at hX
    exact add_canon hX
  clear hE
  unfold Ckd.deriveChildPubKeyD at h
  split at h
  · cases h
  split at h
  · cases h
  simp only at h
  split at h
  · cases h
  split at h
  · cases h
  · split at h
    · cases h
    · split at h
      · cases h
      · next child hc =>
        split at h
        · cases h
        · cases h
          exact ⟨_, hc⟩

theorem derivePub_canon (E : Ckd.Env) (hE : E.curve = Ed.curve) : ∀ (parts : List Bytes) (pk k : Ckd.KeyD), parts ≠ [] →
    Ckd.derivePubLoopD E pk parts = .ok k → Canon k.pub
  | [], _, _, h, _ => absurd rfl h
  | part :: t, pk, k, _, h => by
    unfold Ckd.derivePubLoopD at h
    split at h
    · cases h
    · cases h
    · split at h
      · cases h
      · cases h
      · next x child hc =>
        by_cases ht : t = []
        · subst ht
          unfold Ckd.derivePubLoopD at h
          cases h
          exact deriveChildPub_canon E hE _ _ _ hc
        · exact derivePub_canon E hE t child k ht h

theorem eddsaPub_canon {E : Ckd.Env} (hE : E.curve = Ed.curve) {src deduce Q : ECPoint} {code path : Bytes}
    (h : Ckd.deriveEddsaChildPubKey E src deduce code path = .ok Q) : Canon Q := by
  unfold Ckd.deriveEddsaChildPubKey Ckd.derivePublicKeyForPathD at h
  have hp : Ckd.pathParts (Ckd.newExtendKeyD E [] src deduce 0 0 code).depth path = some (split 47 path) := by
    simp [Ckd.pathParts, Ckd.newExtendKeyD]
  rw [hp] at h
  simp only at h
  cases hl : Ckd.derivePubLoopD E (Ckd.newExtendKeyD E [] src deduce 0 0 code) (split 47 path) with
  | err er => rw [hl] at h; cases h
  | panic => rw [hl] at h; cases h
  | ok k =>
    rw [hl] at h
    simp only at h
    have hc := derivePub_canon E hE _ _ _ (split_ne_nil 47 path) hl
    cases hn : ECPoint.new E.curve k.pub.x k.pub.y with
    | none => rw [hn] at h; cases h
    | some q =>
      rw [hn] at h
      obtain ⟨hq, -⟩ := PLawful.new_some hn
      cases h
      rw [hq]; exact hc

/-- Every derived public share is a derivation of the share at the same place, with the chain code of that place. -/
theorem derivePubs_ok (E : Ckd.Env) (deduce : ECPoint) (path : Bytes) : ∀ (l : List (Option ECPoint)) (cs : List (Option Int))
    (l' : List (Option ECPoint)), derivePubs E deduce path l cs = .ok l' → l'.length = l.length ∧
      ∀ j, j < l.length → ∃ X c Q, l[j]? = some (some X) ∧ cs[j]? = some (some c) ∧ l'[j]? = some (some Q) ∧
        Ckd.deriveEddsaChildPubKey E X deduce (intBytes c) path = .ok Q
  | [], _, l', h => by
    unfold derivePubs at h; cases h
    exact ⟨rfl, by simp⟩
  | none :: t, cs, l', h => by
    unfold derivePubs at h; cases h
  | some X :: t, [], l', h => by
    unfold derivePubs at h; cases h
  | some X :: t, none :: cs, l', h => by
    unfold derivePubs at h; cases h
  | some X :: t, some c :: cs, l', h => by
    unfold derivePubs at h
    cases hq : Ckd.deriveEddsaChildPubKey E X deduce (intBytes c) path with
    | err er => rw [hq] at h; cases h
    | panic => rw [hq] at h; cases h
    | ok Q =>
      rw [hq] at h
      simp only at h
      cases ht : derivePubs E deduce path t cs with
      | err er => rw [ht] at h; cases h
      | panic => rw [ht] at h; cases h
      | ok l =>
        rw [ht] at h
        cases h
        obtain ⟨h1, h2⟩ := derivePubs_ok E deduce path t cs l ht
        refine ⟨by simp [h1], ?_⟩
        intro j hj
        cases j with
        | zero => exact ⟨X, c, Q, rfl, rfl, rfl, hq⟩
        | succ j =>
          obtain ⟨X', c', Q', a1, a2, a3, a4⟩ := h2 j (by simpa using hj)
          exact ⟨X', c', Q', by simpa using a1, by simpa using a2, by simpa using a3, a4⟩

/-- The subset loop only moves public shares around. -/
theorem buildLoop_pub (src : Keygen.SaveData) (m : Bytes → Option Nat) : ∀ (ids : List PartyID) (j : Nat)
    (d d' : Keygen.SaveData), Keygen.buildLoop src m j ids d = .ok d' →
    (∀ x ∈ d'.pubXj, x ∈ d.pubXj) ∧ d'.privXi = d.privXi
  | [], j, d, d', h => by
    unfold Keygen.buildLoop at h; cases h; exact ⟨fun x hx => hx, rfl⟩
  | id :: t, j, d, d', h => by
    unfold Keygen.buildLoop at h
    split at h
    · cases h
    · split at h
      · next s hs k X n r h1 h2 h3 h4 =>
        split at h
        · obtain ⟨g1, g2⟩ := buildLoop_pub src m t (j + 1) _ d' h
          refine ⟨fun x hx => ?_, g2⟩
          have := g1 x hx
          simp only at this
          rcases List.mem_or_eq_of_mem_set this with h5 | h5
          · exact h5
          · rw [h5]; exact List.mem_of_getElem? h2
        · cases h
      · cases h

/-- What a successful preparation has done, before the selection of the signing parties. -/
theorem prepareKeys_ok {e : Env} {idx n : Nat} {ids : List PartyID} {refresh path : Bytes} {d keys : Keygen.SaveData}
    (h : prepareKeys e idx n ids refresh path d = .ok keys) :
    (split 47 path).length = 5 ∧ ∃ code priv pub deduce child kb pubs payload pks peds,
      d.chainCodes[idx]? = some (some code) ∧ d.privXi = some priv ∧ d.pubXj[idx]? = some (some pub) ∧ d.eddsaPub = some deduce ∧
      Ckd.deriveEddsaChildPrivKey e.ckd priv pub deduce (intBytes code) path = .ok (child, kb) ∧
      derivePubs e.ckd deduce path d.pubXj d.chainCodes = .ok pubs ∧ hexDecode refresh = some payload ∧
      parseRefresh payload (e.hexTail refresh) 1376 n = some (pks, peds) ∧
      Keygen.BuildLocalSaveDataSubset { d with
        privXi := some (beNat child : Int)
        pubXj := pubs
        paillierPKs := pks
        ringPedersenPKs := peds } ids = .ok keys := by
  unfold prepareKeys at h
  by_cases hl : (split 47 path).length ≠ 5
  · rw [if_pos hl] at h; cases h
  rw [if_neg hl] at h
  refine ⟨not_not.mp hl, ?_⟩
  split at h
  · next code priv pub deduce h1 h2 h3 h4 =>
    cases h5 : Ckd.deriveEddsaChildPrivKey e.ckd priv pub deduce (intBytes code) path with
    | err er => rw [h5] at h; cases h
    | panic => rw [h5] at h; cases h
    | ok ck =>
      obtain ⟨child, kb⟩ := ck
      rw [h5] at h
      simp only at h
      cases h6 : derivePubs e.ckd deduce path d.pubXj d.chainCodes with
      | err er => rw [h6] at h; cases h
      | panic => rw [h6] at h; cases h
      | ok pubs =>
        rw [h6] at h
        simp only at h
        cases h7 : hexDecode refresh with
        | none => rw [h7] at h; cases h
        | some payload =>
          rw [h7] at h
          simp only at h
          cases h8 : parseRefresh payload (e.hexTail refresh) 1376 n with
          | none => rw [h8] at h; cases h
          | some pp =>
            obtain ⟨pks, peds⟩ := pp
            rw [h8] at h
            simp only at h
            cases h9 : Keygen.BuildLocalSaveDataSubset { d with
                privXi := some (beNat child : Int)
                pubXj := pubs
                paillierPKs := pks
                ringPedersenPKs := peds } ids with
            | err er => rw [h9] at h; cases h
            | panic => rw [h9] at h; cases h
            | ok k =>
              rw [h9] at h
              cases h
              exact ⟨code, priv, pub, deduce, child, kb, pubs, payload, pks, peds, h1, h2, h3, h4, h5, h6, rfl, h8, h9⟩
  · cases h

theorem prepareKeys_canon {e : Env} {idx n : Nat} {ids : List PartyID} {refresh path : Bytes} {d keys : Keygen.SaveData}
    (h : prepareKeys e idx n ids refresh path d = .ok keys) : ∀ X, some X ∈ keys.pubXj → Canon X := by
  obtain ⟨-, code, priv, pub, deduce, child, kb, pubs, payload, pks, peds, -, -, -, -, -, h6, -, -, h9⟩ := prepareKeys_ok h
  intro X hX
  unfold Keygen.BuildLocalSaveDataSubset at h9
  cases hm : Keygen.keysToIndices d.ks 0 (fun _ => none) with
  | none => simp only [hm] at h9; cases h9
  | some m =>
    simp only [hm] at h9
    have := (buildLoop_pub _ _ _ _ _ _ h9).1 _ hX
    simp only at this
    obtain ⟨j, hj, hjX⟩ := List.mem_iff_getElem.mp this
    obtain ⟨g1, g2⟩ := derivePubs_ok _ _ _ _ _ _ h6
    obtain ⟨X0, c, Q, -, -, a3, a4⟩ := g2 j (by omega)
    rw [List.getElem?_eq_getElem hj, hjX] at a3
    cases a3
    exact eddsaPub_canon rfl a4

/-- Summing canonical points. -/
theorem sumPub_canon (l : List (Option ECPoint)) : ∀ (j : Nat) (g : Ed.Point) (s : ECPoint),
    (∀ X, some X ∈ l → Canon X) → Keygen.sumPub Ed.curve j (Ed.lawful.pt g) l = .ok s →
    ∃ gs : List Ed.Point, l = gs.map (fun g => some (Ed.lawful.pt g)) ∧ s = Ed.lawful.pt (g + gs.sum) := by
  induction l with
  | nil =>
    intro j g s _ h
    rw [Keygen.sumPub, Res.ok.injEq] at h
    exact ⟨[], rfl, by rw [← h]; simp⟩
  | cons o t ih =>
    intro j g s hl h
    cases o with
    | none => rw [Keygen.sumPub] at h; exact nomatch h
    | some X =>
      obtain ⟨x, rfl⟩ := hl X (by simp)
      rw [Keygen.sumPub, Ed.lawful.add_pt (Ed.lawful.on_pt _) (Ed.lawful.on_pt _)] at h
      simp only [Lawful.val_pt] at h
      obtain ⟨gs, h1, h2⟩ := ih (j + 1) (g + x) s (fun X hX => hl X (by simp [hX])) h
      exact ⟨x :: gs, by simp [h1], by rw [h2]; simp [add_assoc]⟩

/-! ### The invariant -/

/-- What every reachable signing party satisfies. -/
structure PInv (p : Party) : Prop where
  idx : p.index < p.ids.length
  l11 : p.m11.length = p.ids.length
  l12 : p.m12.length = p.ids.length
  l2 : p.m2.length = p.ids.length
  l3 : p.m3.length = p.ids.length
  ls1 : p.send12.length = p.ids.length
  ls2 : p.send2.length = p.ids.length
  lkc : p.kc.length = p.ids.length
  pubs : ∀ X, some X ∈ p.keys.pubXj → Canon X
  si : ∀ s, p.si = some s → s.length = 32 ∧ leNat s < Ed.ord
  r : ∀ r, p.r = some r → 0 ≤ r ∧ r < 2 ^ 256
  agg : p.k ≠ none → ∃ gs : List Ed.Point, p.keys.pubXj = gs.map (fun g => some (Ed.lawful.pt g)) ∧
    p.keys.eddsaPub = some (Ed.lawful.pt gs.sum)

/-- The invariant only looks at these fields. -/
theorem PInv.congr {p q : Party} (h : PInv p) (h1 : q.index = p.index) (h2 : q.ids = p.ids) (h3 : q.keys = p.keys)
    (h4 : q.m11.length = p.m11.length) (h5 : q.m12.length = p.m12.length) (h6 : q.m2.length = p.m2.length)
    (h7 : q.m3.length = p.m3.length) (h8 : q.send12.length = p.send12.length) (h9 : q.send2.length = p.send2.length)
    (h10 : q.kc.length = p.kc.length) (h11 : q.k = p.k) (h12 : q.si = p.si) (h13 : q.r = p.r) : PInv q where
  idx := by rw [h1, h2]; exact h.idx
  l11 := by rw [h4, h2]; exact h.l11
  l12 := by rw [h5, h2]; exact h.l12
  l2 := by rw [h6, h2]; exact h.l2
  l3 := by rw [h7, h2]; exact h.l3
  ls1 := by rw [h8, h2]; exact h.ls1
  ls2 := by rw [h9, h2]; exact h.ls2
  lkc := by rw [h10, h2]; exact h.lkc
  pubs := by rw [h3]; exact h.pubs
  si := by rw [h12]; exact h.si
  r := by rw [h13]; exact h.r
  agg := by rw [h11, h3]; exact h.agg

theorem r1Step_inv (e : Env) (rnd : Rand1) (n K : Int) (p : Party) (j : Nat) (h : PInv p) :
    PInv (r1Step e rnd n K p j).2 := by
  unfold r1Step
  split
  · exact h
  · split
    · exact h
    · exact h
    · refine h.congr rfl rfl rfl rfl ?_ rfl rfl ?_ rfl rfl rfl rfl rfl
      · simp only; split <;> simp
      · simp

theorem r1Proofs_inv (e : Env) (rnd : Rand1) (n K : Int) (p : Party) (h : PInv p) : PInv (r1Proofs e rnd n K p).2 := by
  have h3 := forJ_inv PInv (fun s j hs => r1Step_inv e rnd n K s j hs) (List.range p.ids.length) p h
  unfold r1Proofs
  split <;> next heq => rw [heq] at h3; exact h3

theorem r1Encrypt_inv (e : Env) (rnd : Rand1) (p : Party) (h : PInv p) : PInv (r1Encrypt e rnd p).2 := by
  unfold r1Encrypt
  split
  · exact h
  · split
    · exact h
    · split
      · exact h
      · exact r1Proofs_inv _ _ _ _ _ (h.congr rfl rfl rfl (by simp) rfl rfl rfl rfl rfl (by simp) rfl rfl rfl)

theorem sumPub_ok_iff (j : Nat) (X : ECPoint) (l : List (Option ECPoint)) (s : ECPoint) :
    sumPub j X l = .ok s ↔ Keygen.sumPub Ed.curve j X l = .ok s := by
  unfold sumPub
  generalize Keygen.sumPub Ed.curve j X l = v
  rcases v with s' | er | _
  · simp
  · cases er <;> simp
  · simp

theorem r1Body_inv (e : Env) (rnd : Rand1) (p : Party) (h : PInv p) : PInv (r1Body e rnd p).2 := by
  unfold r1Body
  split
  · next X0 t hpub =>
    cases hs : sumPub 1 X0 t with
    | err er => exact h
    | panic => exact h
    | ok s =>
      simp only
      apply r1Encrypt_inv
      refine ⟨h.idx, h.l11, h.l12, h.l2, h.l3, h.ls1, h.ls2, h.lkc, h.pubs, h.si, h.r, fun _ => ?_⟩
      obtain ⟨g0, rfl⟩ := h.pubs X0 (by rw [hpub]; simp)
      obtain ⟨gs, g1, g2⟩ := sumPub_canon t 1 g0 s (fun X hX => h.pubs X (by rw [hpub]; simp [hX]))
        ((sumPub_ok_iff _ _ _ _).mp hs)
      refine ⟨g0 :: gs, ?_, ?_⟩
      · show p.keys.pubXj = _
        rw [hpub, g1]; rfl
      · show some s = _
        rw [g2, List.sum_cons]
  · exact h

theorem r1Exec_inv (e : Env) (rnd : Rand1) (p : Party) (h : PInv p) : PInv (r1Exec e rnd p).2 :=
  r1Body_inv _ _ _ (h.congr rfl rfl rfl rfl rfl rfl rfl rfl rfl rfl rfl rfl rfl)

theorem r2Verify_inv (e : Env) (p : Party) (j : Nat) (h : PInv p) : PInv (r2Verify e p j).2 := by
  unfold r2Verify
  split
  · exact h
  · split
    · exact h
    · next K hK =>
      have h1 : PInv { p with kc := p.kc.set j (some (beNat K : Int)) } :=
        h.congr rfl rfl rfl rfl rfl rfl rfl rfl rfl (by simp) rfl rfl rfl
      simp only
      split
      · exact h1
      · split
        · exact h1
        · split
          · split <;> exact h1
          · exact h1
      · exact h1
    · exact h

theorem r2Prove_inv (e : Env) (draws : Nat → Draws) (k rho K n : Int) (Ri G : ECPoint) (p : Party) (j : Nat) (h : PInv p) :
    PInv (r2Prove e draws k rho K n Ri G p j).2 := by
  unfold r2Prove
  generalize Ed.curve = curve
  split
  · exact h
  · split
    · exact h
    · exact h
    · split
      · exact h
      · exact h
      · refine h.congr rfl rfl rfl rfl rfl ?_ rfl rfl ?_ rfl rfl rfl rfl
        · simp only; split <;> simp
        · simp

theorem r2Exec_inv (e : Env) (draws : Nat → Draws) (p : Party) (h : PInv p) : PInv (r2Exec e draws p).2 := by
  have h0 : PInv (resetOK { p with number := 2 }) :=
    h.congr rfl rfl rfl rfl rfl rfl rfl rfl rfl rfl rfl rfl rfl
  unfold r2Exec
  simp only
  generalize resetOK { p with number := 2 } = q at h0 ⊢
  have h1 := forJ_inv PInv (fun s j hs => r2Verify_inv e s j hs) (List.range q.m11.length) q h0
  have hP := fun k rho K n Ri G l s => forJ_inv PInv (fun s j hs => r2Prove_inv e draws k rho K n Ri G s j hs) l s
  generalize Ed.curve = curve
  split
  · next heq => rw [heq] at h1; exact h1
  · next heq => rw [heq] at h1; exact h1
  · next heq =>
    rw [heq] at h1
    split
    · exact h1
    · split
      · exact h1
      · split
        · exact hP _ _ _ _ _ _ _ _ h1
        · exact h1

theorem scMulAdd_spec (a b c : Bytes) : (Ed.scMulAdd a b c).length = 32 ∧ leNat (Ed.scMulAdd a b c) < Ed.ord ∧
    leNat (Ed.scMulAdd a b c) = (leNat a * leNat b + leNat c) % Ed.ord := by
  have hlt : (leNat a * leNat b + leNat c) % Ed.ord < Ed.ord := Nat.mod_lt _ Ed.ord_prime.pos
  have hord : Ed.ord < 256 ^ 32 := by decide +kernel
  have e : leNat (Ed.scMulAdd a b c) = (leNat a * leNat b + leNat c) % Ed.ord := by
    unfold Ed.scMulAdd
    rw [leNat_leFixed, Nat.mod_eq_of_lt]
    generalize (leNat a * leNat b + leNat c) % Ed.ord = x at *
    generalize (256 : Nat) ^ 32 = y at *
    omega
  refine ⟨by unfold Ed.scMulAdd; simp, by rw [e]; exact hlt, e⟩

theorem encodedBytes_range (b : Bytes) (h : b.length = 32) : 0 ≤ Ed.encodedBytesToBigInt b ∧ Ed.encodedBytesToBigInt b < 2 ^ 256 ∧
    Ed.encodedBytesToBigInt b = (leNat b : Int) := by
  have e : Ed.encodedBytesToBigInt b = (leNat b : Int) := by
    unfold Ed.encodedBytesToBigInt
    rw [← leNat_reverse, List.reverse_reverse]
  have := leNat_lt b
  rw [h] at this
  have p : (256 : Nat) ^ 32 = 2 ^ 256 := by norm_num
  rw [p] at this
  rw [e]
  exact ⟨by omega, by exact_mod_cast this, rfl⟩

theorem toBytes_length (E : Ed.Ext) : E.toBytes.length = 32 := by
  unfold Ed.Ext.toBytes; simp

/-- What `r3Exec` leaves behind. -/
theorem r3Exec_shape (e : Env) (zs : Nat → Int) (p : Party) :
    (r3Exec e zs p).2 = resetOK { p with number := 3 } ∨
    ∃ (E : Ed.Ext) (A G : ECPoint), ECPoint.new Ed.curve Ed.curve.Gx Ed.curve.Gy = some G ∧
      forJ (r3Step e zs G (resetOK { p with number := 3 })) (List.range p.m2.length)
        (Ed.geScalarMultBase (Ed.bigIntToEncodedBytes p.k)) = (.ok (), E) ∧ p.keys.eddsaPub = some A ∧
      ∃ w si, si = Ed.scMulAdd (Ed.scReduce (e.sha512 (E.toBytes ++ Ed.ecPointToEncodedBytes A.x A.y ++ intBytes p.m)))
          (Ed.bigIntToEncodedBytes p.keys.privXi) (Ed.bigIntToEncodedBytes p.k) ∧
        w = wireBytes (.sg3 (intBytes (Ed.encodedBytesToBigInt si))) ∧
        r3Exec e zs p = (.ok w, { resetOK { p with number := 3 } with
          si := some si
          r := some (Ed.encodedBytesToBigInt E.toBytes)
          m3 := p.m3.set p.index w }) := by
  unfold r3Exec
  generalize ECPoint.new Ed.curve Ed.curve.Gx Ed.curve.Gy = oG
  simp only
  cases oG with
  | none => exact .inl rfl
  | some G =>
    simp only
    have e1 : (resetOK { p with number := 3 }).m2.length = p.m2.length := rfl
    have e2 : (resetOK { p with number := 3 }).k = p.k := rfl
    have e3 : (resetOK { p with number := 3 }).keys = p.keys := rfl
    have e4 : (resetOK { p with number := 3 }).m = p.m := rfl
    have e5 : (resetOK { p with number := 3 }).m3 = p.m3 := rfl
    have e6 : (resetOK { p with number := 3 }).index = p.index := rfl
    rw [e1, e2, e3, e4, e5, e6]
    generalize hout : forJ (r3Step e zs G (resetOK { p with number := 3 })) (List.range p.m2.length)
      (Ed.geScalarMultBase (Ed.bigIntToEncodedBytes p.k)) = out
    rcases out with ⟨u | er | _, E⟩
    · simp only
      cases hA : p.keys.eddsaPub with
      | none => exact .inl rfl
      | some A => exact .inr ⟨E, A, G, rfl, hout, rfl, _, _, rfl, rfl, rfl⟩
    · exact .inl rfl
    · exact .inl rfl

theorem r3Exec_inv (e : Env) (zs : Nat → Int) (p : Party) (h : PInv p) : PInv (r3Exec e zs p).2 := by
  have h0 : PInv (resetOK { p with number := 3 }) :=
    h.congr rfl rfl rfl rfl rfl rfl rfl rfl rfl rfl rfl rfl rfl
  rcases r3Exec_shape e zs p with h1 | ⟨E, A, G, -, -, -, w, si, hsi, -, h1⟩
  · rw [h1]; exact h0
  · rw [h1]
    refine ⟨h0.idx, h0.l11, h0.l12, h0.l2, ?_, h0.ls1, h0.ls2, h0.lkc, h0.pubs, ?_, ?_, h0.agg⟩
    · simp only [List.length_set]; exact h.l3
    · intro s hs
      simp only [Option.some.injEq] at hs
      rw [← hs, hsi]
      exact ⟨(scMulAdd_spec _ _ _).1, (scMulAdd_spec _ _ _).2.1⟩
    · intro r hr
      simp only [Option.some.injEq] at hr
      rw [← hr]
      have := encodedBytes_range _ (toBytes_length E)
      exact ⟨this.1, this.2.1⟩

theorem finalLoop_const (l : List Nat) (s : Party × Option Bytes) : ∃ ok, (forJ finalStep l s).2.1 = { s.1 with ok := ok } := by
  refine forJ_inv (fun t : Party × Option Bytes => ∃ ok, t.1 = { s.1 with ok := ok }) ?_ l s ⟨s.1.ok, rfl⟩
  rintro t j ⟨ok, ht⟩
  obtain ⟨ok', h⟩ := finalStep_const t j
  exact ⟨ok', by rw [h, ht]⟩

/-- The final call changes only bookkeeping and the result record. -/
theorem finalExec_const (e : Env) (p : Party) : ∃ ok data, (finalExec e p).2 = { p with number := 4, ok := ok, data := data } := by
  unfold finalExec
  simp only
  obtain ⟨ok, h⟩ := finalLoop_const (List.range (resetOK { p with number := 4 }).ids.length)
    (resetOK { p with number := 4 }, (resetOK { p with number := 4 }).si)
  have h' : (forJ finalStep (List.range (resetOK { p with number := 4 }).ids.length)
    (resetOK { p with number := 4 }, (resetOK { p with number := 4 }).si)).2.1 = { p with number := 4, ok := ok } := h
  generalize forJ finalStep (List.range (resetOK { p with number := 4 }).ids.length)
    (resetOK { p with number := 4 }, (resetOK { p with number := 4 }).si) = out at h' ⊢
  rcases out with ⟨u | er | _, q, s⟩
  · simp only at h'
    subst h'
    cases s with
    | none => exact ⟨ok, p.data, rfl⟩
    | some sum =>
      simp only
      cases p.r with
      | none => exact ⟨ok, _, rfl⟩
      | some r =>
        simp only
        cases p.keys.eddsaPub with
        | none => exact ⟨ok, _, rfl⟩
        | some A =>
          simp only
          split
          · split <;> exact ⟨ok, _, rfl⟩
          · exact ⟨ok, _, rfl⟩
  · simp only at h'; subst h'; exact ⟨ok, p.data, rfl⟩
  · simp only at h'; subst h'; exact ⟨ok, p.data, rfl⟩

theorem finalExec_inv (e : Env) (p : Party) (h : PInv p) : PInv (finalExec e p).2 := by
  obtain ⟨ok, data, h1⟩ := finalExec_const e p
  rw [h1]
  exact h.congr rfl rfl rfl rfl rfl rfl rfl rfl rfl rfl rfl rfl rfl

theorem r1Accept_inv (frm : Int) (msg : Bytes) (p : Party) (h : PInv p) : PInv (r1Accept frm msg p).2 := by
  unfold r1Accept
  split
  · exact h
  · split
    · exact h
    · split
      · exact h.congr rfl rfl rfl (by simp) rfl rfl rfl rfl rfl rfl rfl rfl rfl
      · exact h
    · split
      · exact h.congr rfl rfl rfl rfl (by simp) rfl rfl rfl rfl rfl rfl rfl rfl
      · exact h
    · exact h

theorem accept_inv (kind : Kind) (wrong : Err) (slots : Party → List Bytes) (put : Party → List Bytes → Party)
    (hput : ∀ p l, PInv p → l.length = (slots p).length → PInv (put p l)) (frm : Int) (msg : Bytes) (p : Party)
    (h : PInv p) : PInv (accept kind wrong slots put frm msg p).2 := by
  unfold accept
  split
  · exact h
  · next b hb =>
    split
    · have h1 := hput p ((slots p).set frm.toNat b) h (by simp)
      simp only
      split
      · exact h1
      · split <;> exact h1
    · exact h

theorem fresh_inv (n idx : Nat) (ids : List PartyID) (keys : Keygen.SaveData) (m : Int) (hl : ids.length = n) (hi : idx < n)
    (hk : ∀ X, some X ∈ keys.pubXj → Canon X) : PInv (freshParty n idx ids keys m) where
  idx := by simp only [freshParty]; omega
  l11 := by simp [freshParty, hl]
  l12 := by simp [freshParty, hl]
  l2 := by simp [freshParty, hl]
  l3 := by simp [freshParty, hl]
  ls1 := by simp [freshParty, hl]
  ls2 := by simp [freshParty, hl]
  lkc := by simp [freshParty, hl]
  pubs := hk
  si := by intro s hs; exact nomatch hs
  r := by intro s hs; exact nomatch hs
  agg := by intro h; exact absurd rfl h

theorem withParty_inv {α : Type} (nf : Err) (r : Reg) (key : Bytes) (f : Party → Res Err α × Party)
    (hf : ∀ p, PInv p → PInv (f p).2) (h : ∀ k p, r k = some p → PInv p) :
    ∀ k p, (withParty nf r key f).2 k = some p → PInv p := by
  intro k p hp
  unfold withParty at hp
  split at hp
  · exact h k p hp
  · next q hq =>
    by_cases hk : k = key
    · subst hk
      simp only [set_same, Option.some.injEq] at hp
      rw [← hp]; exact hf q (h _ q hq)
    · simp only [set_other r _ hk] at hp
      exact h k p hp

/-- Every party of every reachable registry. -/
theorem reach_inv {e : Env} {r : Reg} (h : Reach e r) : ∀ k p, r k = some p → PInv p := by
  induction h with
  | init => intro k p hp; exact nomatch hp
  | @step r op _ ih =>
    cases op with
    | new key a =>
      show ∀ k p, (NewLocalParty e r key a).2 k = some p → PInv p
      rcases new_cases e r key a with ⟨o, -, h1⟩ | ⟨uIds, kb, d, keys, m, hc, hu, hi, -, -, hk, -, h1⟩ <;> rw [h1]
      · exact ih
      · intro k p hp
        by_cases hkk : k = key
        · subst hkk
          simp only [set_same, Option.some.injEq] at hp
          rw [← hp]
          have hl : uIds.length = a.partyCount.toNat := ((Keygen.buildIds_eq_some _ _ _ _).mp hu).1
          have hl' : (PartyID.SortPartyIDs uIds none).length = a.partyCount.toNat := by rw [Keygen.sort_length, hl]
          refine fresh_inv _ _ _ _ _ hl' ?_ (prepareKeys_canon hk)
          rw [hl'] at hi; omega
        · simp only [set_other r _ hkk] at hp
          exact ih k p hp
    | remove key =>
      show ∀ k p, (RemoveSignParty r key).2 k = some p → PInv p
      unfold RemoveSignParty
      split
      · exact ih
      · intro k p hp
        by_cases hk : k = key
        · subst hk; simp at hp
        · simp only [set_other r _ hk] at hp
          exact ih k p hp
    | exec1 key rnd => exact withParty_inv _ r key _ (r1Exec_inv e rnd) ih
    | exec2 key d => exact withParty_inv _ r key _ (r2Exec_inv e d) ih
    | exec3 key z => exact withParty_inv _ r key _ (r3Exec_inv e z) ih
    | final key => exact withParty_inv _ r key _ (finalExec_inv e) ih
    | get1 key t => exact withParty_inv _ r key _ (fun p hp => hp) ih
    | get2 key t => exact withParty_inv _ r key _ (fun p hp => hp) ih
    | fin1 key => exact withParty_inv _ r key _ (fun p hp => hp) ih
    | fin2 key => exact withParty_inv _ r key _ (fun p hp => hp) ih
    | fin3 key => exact withParty_inv _ r key _ (fun p hp => hp) ih
    | acc1 key f m => exact withParty_inv _ r key _ (r1Accept_inv f m) ih
    | acc2 key f m =>
      refine withParty_inv _ r key _ (accept_inv _ _ _ _ ?_ f m) ih
      exact fun p l hp hl => hp.congr rfl rfl rfl rfl rfl hl rfl rfl rfl rfl rfl rfl rfl
    | acc3 key f m =>
      refine withParty_inv _ r key _ (accept_inv _ _ _ _ ?_ f m) ih
      exact fun p l hp hl => hp.congr rfl rfl rfl rfl rfl rfl hl rfl rfl rfl rfl rfl rfl

end Tss.Onsign
