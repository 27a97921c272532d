import Verif.Props.KeygenRejoin
import Verif.Props.Rejoin
import Verif.Props.KeygenCodes
import Verif.Props.SaveJson
import Verif.Props.OnsignHonest
import Verif.Props.Ckd
import Mathlib.Data.List.GetD
/-
Property C77: from key generation to a signature.  A finished key generation, its records stored as text, a signing session
created from these texts.
-/
namespace Tss.EndToEnd
open Tss Text Wire RangeProofs

/-- The environment of key generation with the real curve and the real encoding of records; the hash is arbitrary. -/
@[reducible] noncomputable def kgEnv (H : Bytes → Bytes) : Keygen.Env := ⟨Ed.curve, H, fun d => some (SaveJson.marshal d)⟩

/-- A key generation `K` that has finished in state `sK` (any schedule, and parties may have lost their state on the way and come
back as in C118; `K` has the root keys and draws in use at the end), and a signing session `S` of all its parties, whose creation calls get
the texts that key generation returned.  The fields after `message` are the same conditions on the refresh payloads and the
draws as in `Onsign.Honest`. -/
structure Joined (H : Bytes → Bytes) (K : Keygen.Session) (sK : Keygen.Net) (e : Onsign.Env) (S : Onsign.Session) where
  code : Nat → Int
  path : Bytes
  msg : Bytes
  N : Nat → Nat
  pn : Nat → Nat
  ps : Nat → Nat
  pt : Nat → Nat
  good : Keygen.Good (kgEnv H) Ed.lawful K
  run : Keygen.RunLoss (kgEnv H) Ed.lawful K sK
  done : ∀ i, i < K.n → sK.stage i = 5
  rootSize : ∀ i, i < K.n → K.x i < 2 ^ 256
  distinct : ((K.pIDs.take K.n).map fun s => (parseBig 10 s).map Int.natAbs).Nodup
  codes : ∀ i out d, i < K.n → sK.final i = some out → SaveJson.unmarshal out = some d →
    d.chainCodes = (List.range K.n).map fun j => some (code j)
  size : S.n = K.n
  keyInj : ∀ i j, i < S.n → j < S.n → S.key i = S.key j → i = j
  count : ∀ i, i < S.n → (S.args i).partyCount = S.n ∧ (S.args i).partyIndex = i ∧ (S.args i).pIDs = K.pIDs ∧
    (S.args i).path = path
  decode : e.jsonDec = SaveJson.unmarshal
  encode : e.jsonSig = fun sd => some (SaveJson.marshalSig sd)
  keyData : ∀ i out, i < S.n → sK.final i = some out → (S.args i).keyData = b64Encode out
  pathLen : (split 47 path).length = 5
  soft : Ckd.spec.NonHardened path
  derivable : ∀ i, i < S.n → ∃ child kb, Ckd.deriveEddsaChildPrivKey e.ckd (K.x i) (Ed.lawful.pt (K.x i • Ed.B))
    (Ed.lawful.pt (((List.range K.n).map K.x).sum • Ed.B)) (intBytes (code i)) path = .ok (child, kb)
  message : ∀ i, i < S.n → hexDecode (S.args i).msg = some msg
  refresh : ∀ i, i < S.n → ∃ b, hexDecode (S.args i).refresh = some b ∧ 1376 + 673 * S.n ≤ b.length ∧ ∀ j, j < S.n →
    N j = beNat ((b.drop (1376 + 673 * j + 33)).take 256) ∧ pn j = beNat ((b.drop (1376 + 673 * j + 289)).take 128) ∧
    ps j = beNat ((b.drop (1376 + 673 * j + 417)).take 128) ∧ pt j = beNat ((b.drop (1376 + 673 * j + 545)).take 128)
  moduli : ∀ i, i < S.n → 0 < N i ∧ 0 < pn i ∧ Nat.gcd (ps i) (pn i) = 1 ∧ Nat.gcd (pt i) (pn i) = 1
  nonce : ∀ i, i < S.n → 0 ≤ (S.rnd i).k ∧ (S.rnd i).k < N i ∧ (S.rnd i).k < 2 ^ 256 ∧ Int.gcd (S.rnd i).rho (N i) = 1
  encUnit : ∀ i j, i < S.n → j < S.n → Int.gcd ((S.rnd i).enc j).r (N i) = 1 ∧
    |((S.rnd i).enc j).alpha| + Ed.curve.N * (S.rnd i).k ≤ 2 * 2 ^ Onsign.proofParameter.lAddEpsilon
  logUnit : ∀ i j, i < S.n → j < S.n → Int.gcd (S.draws i j).r (N i) = 1 ∧
    |(S.draws i j).alpha| + Ed.curve.N * (S.rnd i).k ≤ 2 * 2 ^ Onsign.proofParameter.lAddEpsilon
  encFresh : ∀ i j C, i < S.n → j < S.n → Paillier.cipher (N i) (S.rnd i).k (S.rnd i).rho = some C →
    let o := NewEncryptRangeMessage e.Hb Onsign.proofParameter (Onsign.context Onsign.ssidConst i) C (N i) (S.rnd i).k (S.rnd i).rho
      (pn j, ps j, pt j) ((S.rnd i).enc j)
    o ≠ .err .exceedMaxRetry ∧ ∀ m, o = .ok m → (Onsign.encMarshal m).length < 2 ^ 60
  logFresh : ∀ i j C, i < S.n → j < S.n → Paillier.cipher (N i) (S.rnd i).k (S.rnd i).rho = some C →
    let o := NewKnowExponent e.Hb Ed.curve Onsign.proofParameter (Onsign.context Onsign.ssidConst i) (S.rnd i).k (S.rnd i).rho C (N i)
      (pn j, ps j, pt j) (Ed.lawful.pt ((S.rnd i).k • Ed.B)) ⟨Ed.curve.Gx, Ed.curve.Gy⟩ (S.draws i j)
    o ≠ .err .exceedMaxRetry ∧ ∀ m, o = .ok m → (Onsign.logMarshal m).length < 2 ^ 60
  zs : ∀ i j, i < S.n → j < S.n → Ed.fe (S.zs i j) % Ed.P ≠ 0

/-! ### The party list -/

theorem sorted_ids {K : Keygen.Session} {u : List PartyID} (hu : Keygen.buildIds K.pIDs 0 K.n = some u)
    (hd : ((K.pIDs.take K.n).map fun s => (parseBig 10 s).map Int.natAbs).Nodup) :
    (Keygen.sortedIds K).length = K.n ∧
    (∀ (j : Nat) (id : PartyID), (Keygen.sortedIds K)[j]? = some id →
      id.key = some (intBytes ((PartyID.Keys (Keygen.sortedIds K)).getD j 0))) ∧
    (∀ i j, i < K.n → j < K.n → intBytes ((PartyID.Keys (Keygen.sortedIds K)).getD i 0) =
      intBytes ((PartyID.Keys (Keygen.sortedIds K)).getD j 0) → i = j) := by
  have hs : Keygen.sortedIds K = PartyID.assignIdx 0 (PartyID.insertionSort u) := by unfold Keygen.sortedIds; rw [hu]; rfl
  obtain ⟨hl, hu'⟩ := (Keygen.buildIds_eq_some _ _ _ _).mp hu
  have hlen : (Keygen.sortedIds K).length = K.n := by
    rw [hs, PartyID.assignIdx_length, (PartyID.insertionSort_perm u).length_eq, hl]
  -- keys of the unsorted list
  have hk0 : ∀ p ∈ u, ∃ v : Int, p.key = some (intBytes v) := by
    intro p hp
    obtain ⟨j, hj, rfl⟩ := List.mem_iff_getElem.mp hp
    obtain ⟨s, k, -, -, h3⟩ := hu' j (by omega)
    rw [List.getElem?_eq_getElem hj] at h3
    exact ⟨k, by rw [Option.some.inj h3]⟩
  have hassign : ∀ (i : Int) (l : List PartyID) (p : PartyID), p ∈ PartyID.assignIdx i l → ∃ q ∈ l, q.key = p.key := by
    intro i l
    induction l generalizing i with
    | nil => intro p hp; cases hp
    | cons q t ih =>
      intro p hp
      rcases List.mem_cons.mp hp with rfl | hp
      · exact ⟨q, by simp, rfl⟩
      · obtain ⟨q', h1, h2⟩ := ih _ p hp
        exact ⟨q', by simp [h1], h2⟩
  have hk1 : ∀ p ∈ Keygen.sortedIds K, ∃ v : Int, p.key = some (intBytes v) := by
    intro p hp
    rw [hs] at hp
    obtain ⟨q, h1, h2⟩ := hassign _ _ p hp
    obtain ⟨v, hv⟩ := hk0 q ((PartyID.insertionSort_perm u).mem_iff.mp h1)
    exact ⟨v, by rw [← h2, hv]⟩
  refine ⟨hlen, ?_, ?_⟩
  · intro j id hj
    obtain ⟨v, hv⟩ := hk1 id (List.mem_of_getElem? hj)
    have : (PartyID.Keys (Keygen.sortedIds K)).getD j 0 = (v.natAbs : Int) := by
      unfold PartyID.Keys
      rw [List.getD_eq_getElem?_getD, List.getElem?_map, hj]
      simp only [Option.map_some, Option.getD_some, PartyID.keyInt, hv, beNat_intBytes]
    rw [this, hv]
    simp only [intBytes, Int.natAbs_natCast]
  · -- the keys are distinct
    have e1 : (PartyID.Keys u).map (fun z => some z.natAbs) = (K.pIDs.take K.n).map fun s => (parseBig 10 s).map Int.natAbs := by
      apply List.ext_getElem?
      intro j
      rw [List.getElem?_map, List.getElem?_map]
      unfold PartyID.Keys
      rw [List.getElem?_map]
      by_cases hj : j < K.n
      · obtain ⟨s, k, h1, h2, h3⟩ := hu' j hj
        rw [Nat.zero_add] at h1
        rw [h3, List.getElem?_take_of_lt hj, h1]
        simp only [Option.map_some, h2, PartyID.keyInt, Option.getD_some, beNat_intBytes, Int.natAbs_natCast]
      · rw [List.getElem?_eq_none (by omega), List.getElem?_eq_none (by simp; omega)]; rfl
    have nd : (PartyID.Keys (Keygen.sortedIds K)).Nodup := by
      rw [hs, PartyID.assignIdx_keys]
      have : (PartyID.Keys u).Nodup := List.Nodup.of_map _ (e1 ▸ hd)
      exact ((PartyID.insertionSort_perm u).map PartyID.keyInt).nodup_iff.mpr this
    intro i j hi hj h
    have lk : (PartyID.Keys (Keygen.sortedIds K)).length = K.n := by unfold PartyID.Keys; rw [List.length_map, hlen]
    have nn : ∀ m, m < K.n → 0 ≤ (PartyID.Keys (Keygen.sortedIds K)).getD m 0 := by
      intro m hm
      rw [List.getD_eq_getElem _ _ (by omega)]
      unfold PartyID.Keys
      rw [List.getElem_map]
      exact Int.natCast_nonneg _
    have h1 := congrArg beNat h
    rw [beNat_intBytes, beNat_intBytes] at h1
    have h2 : (PartyID.Keys (Keygen.sortedIds K)).getD i 0 = (PartyID.Keys (Keygen.sortedIds K)).getD j 0 := by
      have := nn i hi; have := nn j hj; omega
    rw [List.getD_eq_getElem _ _ (by omega), List.getD_eq_getElem _ _ (by omega)] at h2
    exact (List.Nodup.getElem_inj_iff nd).mp h2

/-! ### The two halves fit together -/

variable {H : Bytes → Bytes} {K : Keygen.Session} {sK : Keygen.Net} {e : Onsign.Env} {S : Onsign.Session}

/-- What the stored text of party `i` says. -/
theorem Joined.stored (J : Joined H K sK e S) (i : Nat) (hi : i < K.n) :
    ∃ out d, sK.final i = some out ∧ SaveJson.unmarshal out = some d ∧
      d.eddsaPub = some (Ed.lawful.pt (((List.range K.n).map K.x).sum • Ed.B)) ∧ d.privXi = some (K.x i) ∧
      (d.pubXj = (List.range K.n).map fun j => some (Ed.lawful.pt (K.x j • Ed.B))) ∧
      (d.chainCodes = (List.range K.n).map fun j => some (J.code j)) ∧
      d.ks = (PartyID.Keys (Keygen.sortedIds K)).map some := by
  have hs := (Keygen.loss_run J.run).2.1
  obtain ⟨out, ho⟩ := Option.isSome_iff_exists.mp (hs.final_some i hi (J.done i hi))
  obtain ⟨d, -, a1, a2, a3, a4, a5, -⟩ := hs.final i out hi ho
  have hu : SaveJson.unmarshal out = some d := by
    rw [← Option.some.inj a1]
    refine SaveJson.C76_save_round_trip d ?_ ?_
    · intro p hp
      rw [a4] at hp
      obtain ⟨j, -, hj⟩ := List.mem_map.mp hp
      rw [← Option.some.inj hj]
      exact Ed.lawful.on_pt _
    · intro p hp
      rw [a2] at hp
      rw [← Option.some.inj hp]
      exact Ed.lawful.on_pt _
  exact ⟨out, d, ho, hu, a2, a3, a4, J.codes i out d hi ho hu, a5⟩

/-- The signing session is honest in the sense of C55. -/
theorem Joined.honest (J : Joined H K sK e S) : ∃ h : Onsign.Honest e S, h.x0 = K.x ∧ h.code = J.code ∧ h.path = J.path ∧
    h.msg = J.msg ∧ h.grp = Ed.lawful.pt (((List.range K.n).map K.x).sum • Ed.B) := by
  obtain ⟨u, hu⟩ : ∃ u, Keygen.buildIds K.pIDs 0 K.n = some u := by
    have := (Keygen.idsOk_iff K.n K.pIDs (by omega)).mp J.good.ids
    simpa using Option.isSome_iff_exists.mp this
  obtain ⟨i1, i2, i3⟩ := sorted_ids hu J.distinct
  have hst : ∀ i, ∃ out d, i < K.n → (sK.final i = some out ∧ SaveJson.unmarshal out = some d ∧
      d.eddsaPub = some (Ed.lawful.pt (((List.range K.n).map K.x).sum • Ed.B)) ∧ d.privXi = some (K.x i) ∧
      (d.pubXj = (List.range K.n).map fun j => some (Ed.lawful.pt (K.x j • Ed.B))) ∧
      (d.chainCodes = (List.range K.n).map fun j => some (J.code j)) ∧
      d.ks = (PartyID.Keys (Keygen.sortedIds K)).map some) := by
    intro i
    by_cases hi : i < K.n
    · obtain ⟨out, d, h⟩ := J.stored i hi
      exact ⟨out, d, fun _ => h⟩
    · exact ⟨[], SaveJson.emptySave, fun h => absurd h hi⟩
  choose out d hd using hst
  have hch : ∀ i, ∃ q : Bytes × Bytes, i < S.n → Ckd.deriveEddsaChildPrivKey e.ckd (K.x i) (Ed.lawful.pt (K.x i • Ed.B))
      (Ed.lawful.pt (((List.range K.n).map K.x).sum • Ed.B)) (intBytes (J.code i)) J.path = .ok (q.1, q.2) := by
    intro i
    by_cases hi : i < S.n
    · obtain ⟨c, kb, h⟩ := J.derivable i hi
      exact ⟨(c, kb), fun _ => h⟩
    · exact ⟨([], []), fun h => absurd h hi⟩
  choose q hq using hch
  have sz := J.size
  refine ⟨{
    pIDs := K.pIDs
    ids := Keygen.sortedIds K
    d := d
    kv := fun j => (PartyID.Keys (Keygen.sortedIds K)).getD j 0
    code := J.code
    x0 := K.x
    grp := Ed.lawful.pt (((List.range K.n).map K.x).sum • Ed.B)
    path := J.path
    child := fun i => (q i).1
    kb := fun i => (q i).2
    msg := J.msg
    N := J.N
    pn := J.pn
    ps := J.ps
    pt := J.pt
    keyInj := J.keyInj
    count := J.count
    idsOk := ⟨u, by rw [sz]; exact hu, by unfold Keygen.sortedIds; rw [hu]; rfl⟩
    idKey := i2
    idInj := by rw [sz]; exact i3
    keyData := ?_
    ks := ?_
    priv := ?_
    pub := ?_
    codes := ?_
    group := ?_
    groupOn := Ed.lawful.on_pt _
    pathLen := J.pathLen
    soft := J.soft
    derive := hq
    refresh := J.refresh
    message := J.message
    moduli := J.moduli
    nonce := J.nonce
    encUnit := J.encUnit
    logUnit := J.logUnit
    encFresh := J.encFresh
    logFresh := J.logFresh
    zs := J.zs
    json := fun sd => by rw [J.encode]; rfl }, rfl, rfl, rfl, rfl, rfl⟩
  · intro i hi
    obtain ⟨h1, h2, -⟩ := hd i (by omega)
    exact ⟨out i, by rw [J.keyData i _ hi h1, b64_round_trip], by rw [J.decode]; exact h2⟩
  · intro i hi
    obtain ⟨-, -, -, -, -, -, h⟩ := hd i (by omega)
    rw [h]
    apply List.ext_getElem
    · unfold PartyID.Keys; rw [List.length_map, List.length_map, List.length_map, List.length_range, i1, sz]
    · intro j h1 h2
      rw [List.getElem_map, List.getElem_map, List.getElem_range, List.getD_eq_getElem]
  · intro i hi
    obtain ⟨-, -, -, h, -⟩ := hd i (by omega)
    exact ⟨h, Int.natCast_nonneg _, J.rootSize i (by omega)⟩
  · intro i hi
    obtain ⟨-, -, -, -, h, -⟩ := hd i (by omega)
    rw [sz]; exact h
  · intro i hi
    obtain ⟨-, -, -, -, -, h, -⟩ := hd i (by omega)
    rw [sz]; exact h
  · intro i hi
    obtain ⟨-, -, h, -⟩ := hd i (by omega)
    exact h

/-- C77: signing with the texts that key generation returned: every call of every party returns Ok, in whatever order messages
are fetched and delivered, and however often signers lose their state and come back as in C116 (`S` has the draws in use), and
the run can always be completed. -/
theorem C77_every_call_ok (J : Joined H K sK e S) (s : Onsign.Net) (hr : Onsign.RunLoss e S s) :
    (∀ out s', Onsign.Step e S s out s' → ∃ b, out = .ok b) ∧
    ∃ s', Onsign.Steps e S s s' ∧ ∀ i, i < S.n → s'.stage i = 5 := by
  exact ⟨fun out s' hs => Onsign.C116_every_call_ok hr hs, Onsign.C116_can_finish hr⟩

/-- C77: all signers that finish return the same text, of a record whose signature verifies (RFC 8032, cofactorless) for the message
without its leading zero bytes; the verification key is the sum of the child public keys that *anyone* who holds the stored text
of *any* party derives from the public values in it: public share and chain code of each party, group key and path. -/
theorem C77_end_to_end (J : Joined H K sK e S) : ∃ (sd : Onsign.SigData) (Q : Nat → ECPoint),
    (∀ s, Onsign.RunLoss e S s → ∀ i, i < S.n → s.stage i = 5 → s.final i = some (SaveJson.marshalSig sd)) ∧
    (∀ i out d, i < K.n → sK.final i = some out → SaveJson.unmarshal out = some d →
      ∀ j, j < K.n → ∃ X code grp, d.pubXj[j]? = some (some X) ∧ d.chainCodes[j]? = some (some code) ∧ d.eddsaPub = some grp ∧
        Ckd.deriveEddsaChildPubKey e.ckd X grp (intBytes code) J.path = .ok (Q j)) ∧
    Onsign.spec.Verifies e.sha512 (Ed.encode ((List.range K.n).map fun j => Ed.toPt (Q j).x (Q j).y).sum)
      (J.msg.dropWhile (· = 0)) sd.signature ∧
    leNat (sd.signature.drop 32) < Ed.ord := by
  obtain ⟨h, hx, hc, hp, hm, hg⟩ := J.honest
  obtain ⟨sd, a1, a2, a3, -⟩ := Onsign.agreement_inv h
  have sz := J.size
  have hQ : ∀ j, ∃ Q : ECPoint, j < K.n → Ckd.deriveEddsaChildPubKey e.ckd (Ed.lawful.pt (K.x j • Ed.B))
      (Ed.lawful.pt (((List.range K.n).map K.x).sum • Ed.B)) (intBytes (J.code j)) J.path = .ok Q ∧
      Ed.toPt Q.x Q.y = (beNat (h.child j) : Int) • Ed.B := by
    intro j
    by_cases hj : j < K.n
    · have hd := h.derive j (by omega)
      rw [hx, hc, hp, hg] at hd
      obtain ⟨Q, q1, q2, q3, -⟩ := (Ckd.C47_eddsa_priv_pub_agree (E := e.ckd) rfl (priv := K.x j) (Int.natCast_nonneg _)
        (J.rootSize j hj) (Ed.lawful.on_pt _) (Ed.lawful.on_pt _) (Ed.lawful.val_pt _) (intBytes (J.code j)) J.path J.soft).1 _ _ hd
      exact ⟨Q, fun _ => ⟨q1, q3⟩⟩
    · exact ⟨⟨0, 0⟩, fun h => absurd h hj⟩
  choose Q hQ using hQ
  refine ⟨sd, Q, ?_, ?_, ?_, a3⟩
  · intro s hr i hi h5
    obtain ⟨p, out, -, b2, b3, -⟩ := a1 s (Onsign.loss_run hr).2.1 i hi h5
    rw [J.encode] at b3
    rw [b2, ← Option.some.inj b3]
  · intro i out d hi ho hd j hj
    obtain ⟨out', d', b1, b2, b3, -, b4, b5, -⟩ := J.stored i hi
    rw [ho] at b1
    rw [← Option.some.inj b1, hd] at b2
    rw [← Option.some.inj b2] at b3 b4 b5
    refine ⟨_, _, _, ?_, ?_, b3, (hQ j hj).1⟩
    · rw [b4, List.getElem?_map, List.getElem?_range hj]; rfl
    · rw [b5, List.getElem?_map, List.getElem?_range hj]; rfl
  · have hsum : ((List.range K.n).map fun j => Ed.toPt (Q j).x (Q j).y).sum =
        ((List.range S.n).map fun j => (beNat (h.child j) : Int)).sum • Ed.B := by
      rw [sz]
      have : ∀ l : List Nat, (∀ j ∈ l, j < K.n) → (l.map fun j => Ed.toPt (Q j).x (Q j).y).sum =
          (l.map fun j => (beNat (h.child j) : Int)).sum • Ed.B := by
        intro l
        induction l with
        | nil => intro _; simp
        | cons j t ih =>
          intro hl
          simp only [List.map_cons, List.sum_cons]
          rw [ih fun k hk => hl k (by simp [hk]), (hQ j (hl j (by simp))).2, add_smul]
      exact this _ fun j hj => by simpa using hj
    rw [hsum, ← hm]
    exact a2

end Tss.EndToEnd
