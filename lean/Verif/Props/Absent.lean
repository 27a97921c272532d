import Verif.Props.OnsignHonestEx
import Verif.Props.NonceReuse
import Verif.Props.Ed25519Order
/-! C114: the parties of key generation can only sign together. -/
namespace Tss.Onsign
open Tss Text Wire RangeProofs

/-! ### Specification -/

/-- What the derived shares of the parties that do not take part add up to. -/
def spec.absent {e : Env} {S : Session} (H : Signers e S) : Nat :=
  (((List.range H.total).drop S.n).map fun j => beNat (H.child j)).sum

/-- The group key: all the derived shares, times the base point. -/
noncomputable def spec.groupKey {e : Env} {S : Session} (H : Signers e S) : Ed.Point :=
  ((List.range H.total).map fun j => beNat (H.child j)).sum • Ed.B

/-- The nonce point of the signers. -/
noncomputable def spec.jointNonce (S : Session) : Ed.Point := ((List.range S.n).map fun j => (S.rnd j).k).sum • Ed.B

/-- The challenge of the signers' session (RFC 8032: of the nonce point, the group key and the message). -/
noncomputable def spec.sessionChallenge {e : Env} {S : Session} (H : Signers e S) : Nat :=
  spec.challenge e.sha512 (Ed.encode (spec.jointNonce S)) (Ed.encode (spec.groupKey H)) (intBytes (beNat H.msg : Int))

/-- Only the first `k` parties of a session sign, under the ids `pIDs`. -/
def spec.onlyFirst (S : Session) (k : Nat) (pIDs : List Bytes) : Session :=
  { S with
    n := k
    args := fun i => { S.args i with
      partyCount := k
      pIDs := pIDs } }

/-! ### the shares that are missing -/

variable {e : Env} {S : Session}

theorem sum_cast (f : Nat → Bytes) (l : List Nat) :
    ((l.map fun j => ((beNat (f j) : Nat) : Int)).sum) = (((l.map fun j => beNat (f j)).sum : Nat) : Int) := by
  induction l with
  | nil => rfl
  | cons a t ih => simp only [List.map_cons, List.sum_cons, ih]; push_cast; rfl

theorem total_split (H : Signers e S) : ((List.range H.total).map H.x).sum =
    ((List.range S.n).map H.x).sum + (spec.absent H : Int) := by
  have h1 : (List.range H.total).take S.n = List.range S.n := by
    rw [List.take_range, Nat.min_eq_left H.fits]
  conv_lhs => rw [← List.take_append_drop S.n (List.range H.total)]
  rw [List.map_append, List.sum_append, h1]
  congr 1
  exact sum_cast H.child _

theorem groupKey_eq (H : Signers e S) : spec.groupKey H = ((List.range H.total).map H.x).sum • Ed.B := by
  unfold spec.groupKey
  rw [← natCast_zsmul, ← sum_cast]
  rfl

theorem lam_smul_iff (c : Nat) (a : Int) (b : Nat) :
    ((c : Int) * a) • Ed.B = c • ((a + (b : Int)) • Ed.B) ↔ c * b % Ed.ord = 0 := by
  rw [add_smul, smul_add, mul_smul, natCast_zsmul, left_eq_add, natCast_zsmul, ← mul_smul]
  rw [← addOrderOf_dvd_iff_nsmul_eq_zero, Ed.addOrderOf_B]
  exact Nat.dvd_iff_mod_eq_zero

theorem check_iff (H : Signers e S) (F : GFacts e S) (f3 : F.mOf = fun _ => (beNat H.msg : Int)) (f4 : F.x = H.x)
    (f5 : F.AOf = fun _ => ((List.range H.total).map H.x).sum • Ed.B) (i : Nat) :
    F.Fits i ↔ spec.sessionChallenge H * spec.absent H % Ed.ord = 0 := by
  have hl : ∀ j, F.lamOf j = spec.sessionChallenge H := by
    intro j
    unfold GFacts.lamOf spec.sessionChallenge spec.challenge
    rw [groupKey_eq, f5, f3]
    rfl
  unfold GFacts.Fits
  simp only [hl]
  rw [List.sum_map_mul_left, f4, f5]
  simp only
  rw [total_split]
  exact lam_smul_iff _ _ _

/-! ### C114 -/

/-- C114. Honest signers that are the first of the parties: whatever the schedule, every call up to and including round 3
succeeds, for every one of them: nothing before the last call shows that somebody is missing. -/
theorem C114_rounds_succeed (H : Signers e S) (s s' : Net) (out : Res Err Bytes) (hr : Run e S s) (h : Step e S s out s')
    (hnot : ∀ i, i < S.n → ¬ (s.stage i = 4 ∧ s'.stage i = 5)) : ∃ b, out = .ok b := by
  obtain ⟨F, -⟩ := H.facts
  exact (gstep_ok (run_inv F hr) h).1.1 fun i ⟨hi, h4, h5⟩ => hnot i hi ⟨h4, h5⟩

/-- C114. The last call of a signer that has all the messages of its co-signers: it fails with the signature error unless
the challenge times the sum of the absent shares is zero modulo the group order. -/
theorem C114_last_call (H : Signers e S) (s : Net) (hr : Run e S s) (i : Nat) (hi : i < S.n) (h4 : s.stage i = 4)
    (hall : s.all S .three i) :
    (spec.sessionChallenge H * spec.absent H % Ed.ord ≠ 0 →
      (OnsignFinalExec e s.reg (S.key i)).1 = .err .verifyFailed) ∧
    (spec.sessionChallenge H * spec.absent H % Ed.ord = 0 →
      ∃ out, (OnsignFinalExec e s.reg (S.key i)).1 = .ok out) := by
  obtain ⟨F, -, -, f3, f4, f5⟩ := H.facts
  have hst := Step.final (e := e) s i hi h4 hall _ rfl
  obtain ⟨⟨-, hl⟩, -⟩ := gstep_ok (run_inv F hr) hst
  obtain ⟨l1, l2⟩ := hl i ⟨hi, h4, upd_same _ _ _⟩
  have hc := check_iff H F f3 f4 f5 i
  exact ⟨fun h => l2 fun he => h (hc.mp he), fun h => l1 (hc.mpr h)⟩

/-- C114. In no run of the signers does any of them get a signature (unless the challenge hides the absent shares). -/
theorem C114_nothing_released (H : Signers e S) (hc : spec.sessionChallenge H * spec.absent H % Ed.ord ≠ 0) (s : Net)
    (hr : Run e S s) (i : Nat) (hi : i < S.n) : s.final i = none := by
  obtain ⟨F, -, -, f3, f4, f5⟩ := H.facts
  have hne : ∀ j, ¬ F.Fits j := fun j h => hc ((check_iff H F f3 f4 f5 j).mp h)
  induction hr generalizing i with
  | init r => rfl
  | @step s0 s1 out h0 hst ih =>
    have hl := (gstep_ok (run_inv F h0) hst).1.2
    cases hst with
    | final j hj h4 ha q hq =>
      have := (hl j ⟨hj, h4, upd_same _ _ _⟩).2 (hne j)
      show upd s0.final j (dataOf q.1) i = none
      rw [this]
      simp only [upd]
      split
      · rfl
      · exact ih i hi
    | _ => exact ih i hi
  | noise _ hn ih =>
    cases hn <;> exact ih i hi

/-- C114. The signers do get that far: from every state of a run all of them can go on to their last call. -/
theorem C114_reaches_last (H : Signers e S) (s : Net) (hr : Run e S s) :
    ∃ s', Steps e S s s' ∧ ∀ i, i < S.n → s'.stage i = 5 :=
  H.facts.elim fun F _ => can_finish F s (run_inv F hr)

/-- C114. Parties that could sign together: the first `k` of them, with the same data and draws, are honest signers in
the sense of the theorems above, and the shares of the rest are what is missing. -/
theorem C114_part_of_session (H : Honest e S) (k : Nat) (hk : k ≤ S.n) (pIDs : List Bytes) (u : List PartyID)
    (hu : Keygen.buildIds pIDs 0 k = some u)
    (hid : ∀ (j : Nat) (id : PartyID), (PartyID.SortPartyIDs u none)[j]? = some id → id.key = some (intBytes (H.kv j))) :
    ∃ H' : Signers e (spec.onlyFirst S k pIDs), H'.child = H.child ∧ H'.msg = H.msg ∧ H'.total = S.n := by
  have lt : ∀ {i}, i < k → i < S.n := fun h => by omega
  refine ⟨{
    pIDs := pIDs
    ids := PartyID.SortPartyIDs u none
    d := H.d
    kv := H.kv
    code := H.code
    x0 := H.x0
    grp := H.grp
    path := H.path
    child := H.child
    kb := H.kb
    msg := H.msg
    N := H.N
    pn := H.pn
    ps := H.ps
    pt := H.pt
    total := S.n
    fits := hk
    keyInj := fun i j hi hj => H.keyInj i j (lt hi) (lt hj)
    count := fun i hi => ⟨rfl, (H.count i (lt hi)).2.1, rfl, (H.count i (lt hi)).2.2.2⟩
    idsOk := ⟨u, hu, rfl⟩
    idKey := hid
    idInj := H.idInj
    keyData := fun i hi => H.keyData i (lt hi)
    ks := fun i hi => H.ks i (lt hi)
    priv := fun i hi => (H.priv i (lt hi)).1
    share := fun i hi => (H.priv i hi).2
    pub := fun i hi => H.pub i (lt hi)
    codes := fun i hi => H.codes i (lt hi)
    group := fun i hi => H.group i (lt hi)
    groupOn := H.groupOn
    pathLen := H.pathLen
    soft := H.soft
    derive := H.derive
    refresh := ?_
    message := fun i hi => H.message i (lt hi)
    moduli := fun i hi => H.moduli i (lt hi)
    nonce := fun i hi => H.nonce i (lt hi)
    encUnit := fun i j hi hj => H.encUnit i j (lt hi) (lt hj)
    logUnit := fun i j hi hj => H.logUnit i j (lt hi) (lt hj)
    encFresh := fun i j K hi hj => H.encFresh i j K (lt hi) (lt hj)
    logFresh := fun i j K hi hj => H.logFresh i j K (lt hi) (lt hj)
    zs := fun i j hi hj => H.zs i j (lt hi) (lt hj)
    json := H.json }, rfl, rfl, rfl⟩
  intro i hi
  obtain ⟨b, b1, b2, b3⟩ := H.refresh i (lt hi)
  exact ⟨b, b1, by show 1376 + 673 * k ≤ _; omega, fun j hj => b3 j (lt hj)⟩

/-! ### other parties than the first -/

theorem prepare_not_ok {e : Env} {idx n : Nat} {ids : List PartyID} {refresh path : Bytes} {d : Keygen.SaveData}
    (hp : ∀ k ∈ d.ks, k ≠ none)
    (hd : ∀ (i j : Nat) (a b : Int), d.ks[i]? = some (some a) → d.ks[j]? = some (some b) → intBytes a = intBytes b → i = j)
    (f : Nat → Nat)
    (hid : ∀ (j : Nat) (id : PartyID), ids[j]? = some id → ∃ k, d.ks[f j]? = some (some k) ∧ id.key = some (intBytes k))
    (hb : ∃ j, j < ids.length ∧ n ≤ f j) : ∀ keys, prepareKeys e idx n ids refresh path d ≠ .ok keys := by
  intro keys h
  unfold prepareKeys at h
  split at h
  · cases h
  split at h
  swap
  · cases h
  split at h
  · cases h
  · cases h
  split at h
  · cases h
  · cases h
  split at h
  · cases h
  split at h
  · cases h
  rename_i child _ _ _ pubs _ _ payload _ _ pks peds hpr
  have hl := (parseRefresh_length _ _ _ _ _ _ hpr).1
  have := Keygen.beyond_panics { d with
      privXi := some (beNat child : Int)
      pubXj := pubs
      paillierPKs := pks
      ringPedersenPKs := peds } ids f hp hd hid (by rw [hl]; exact hb)
  rw [this] at h
  cases h

/-- C114. A creation call of `partyCount` signers one of which is not among the first `partyCount` parties of key
generation (its stored position is `partyCount` or more) never succeeds, and leaves the sessions alone. -/
theorem C114_others_refused {a : NewArgs} {ids : List PartyID} (h : spec.IdsFit a ids) (e : Env) (r : Reg) (key kb : Bytes)
    (d : Keygen.SaveData) (hb : b64Decode a.keyData = some kb) (hj : e.jsonDec kb = some d)
    (hp : ∀ k ∈ d.ks, k ≠ none)
    (hd : ∀ (i j : Nat) (a b : Int), d.ks[i]? = some (some a) → d.ks[j]? = some (some b) → intBytes a = intBytes b → i = j)
    (pos : Nat → Nat)
    (hid : ∀ (j : Nat) (id : PartyID), ids[j]? = some id → ∃ k, d.ks[pos j]? = some (some k) ∧ id.key = some (intBytes k))
    (hout : ∃ j, j < ids.length ∧ a.partyCount ≤ pos j) :
    (NewLocalParty e r key a).1 ≠ .ok () ∧ (NewLocalParty e r key a).2 = r := by
  have hn : 0 ≤ a.partyCount := h.1
  have hno := prepare_not_ok (e := e) (idx := a.partyIndex.toNat) (refresh := a.refresh) (path := a.path) hp hd pos hid
    (n := a.partyCount.toNat) (by obtain ⟨j, h1, h2⟩ := hout; exact ⟨j, h1, by omega⟩)
  rw [new_head h, hb]
  simp only
  rw [hj]
  simp only
  generalize prepareKeys e a.partyIndex.toNat a.partyCount.toNat ids a.refresh a.path d = o at hno
  cases o with
  | err er => exact ⟨by simp, rfl⟩
  | panic => exact ⟨by simp, rfl⟩
  | ok keys => exact absurd rfl (hno keys)

/-- C114. It does not return an error either: with data, path and refresh payload that are in order it crashes. -/
theorem C114_others_crash {a : NewArgs} {ids : List PartyID} (h : spec.IdsFit a ids) (e : Env) (r : Reg) (key kb payload : Bytes)
    (d : Keygen.SaveData) (hb : b64Decode a.keyData = some kb) (hj : e.jsonDec kb = some d)
    (hp : ∀ k ∈ d.ks, k ≠ none)
    (hd : ∀ (i j : Nat) (a b : Int), d.ks[i]? = some (some a) → d.ks[j]? = some (some b) → intBytes a = intBytes b → i = j)
    (pos : Nat → Nat)
    (hid : ∀ (j : Nat) (id : PartyID), ids[j]? = some id → ∃ k, d.ks[pos j]? = some (some k) ∧ id.key = some (intBytes k))
    (hout : ∃ j, j < ids.length ∧ a.partyCount ≤ pos j)
    (hpath : (split 47 a.path).length = 5)
    (code x : Int) (X grp : ECPoint) (hcode : d.chainCodes[a.partyIndex.toNat]? = some (some code)) (hx : d.privXi = some x)
    (hX : d.pubXj[a.partyIndex.toNat]? = some (some X)) (hg : d.eddsaPub = some grp)
    (hpriv : ∃ q, Ckd.deriveEddsaChildPrivKey e.ckd x X grp (intBytes code) a.path = .ok q)
    (hpubs : ∃ pubs, derivePubs e.ckd grp a.path d.pubXj d.chainCodes = .ok pubs)
    (href : hexDecode a.refresh = some payload) :
    NewLocalParty e r key a = (.panic, r) := by
  have hn : 0 ≤ a.partyCount := h.1
  obtain ⟨⟨child, kk⟩, hpriv⟩ := hpriv
  obtain ⟨pubs, hpubs⟩ := hpubs
  rw [new_head h, hb]
  simp only
  rw [hj]
  simp only
  have : prepareKeys e a.partyIndex.toNat a.partyCount.toNat ids a.refresh a.path d = .panic := by
    unfold prepareKeys
    rw [if_neg (by simpa using hpath), hcode, hx, hX, hg]
    simp only
    rw [hpriv]
    simp only
    rw [hpubs]
    simp only
    rw [href]
    simp only
    cases hpr : parseRefresh payload (e.hexTail a.refresh) 1376 a.partyCount.toNat with
    | none => rfl
    | some q =>
      obtain ⟨pks, peds⟩ := q
      have hl := (parseRefresh_length _ _ _ _ _ _ hpr).1
      have := Keygen.beyond_panics { d with
          privXi := some (beNat child : Int)
          pubXj := pubs
          paillierPKs := pks
          ringPedersenPKs := peds } ids pos hp hd hid
          (by rw [hl]; obtain ⟨j, h1, h2⟩ := hout; exact ⟨j, h1, by omega⟩)
      simp only
      rw [← hg, this]
  rw [this]

/-- C114. Parties that could sign together: if `k` of them are to sign and one of those is not among the first `k`, the
creation call of every signer that passes its own key-generation index crashes. -/
theorem C114_part_crashes (H : Honest e S) (i : Nat) (hi : i < S.n) (k : Nat) (hik : i < k) (pIDs : List Bytes)
    (u : List PartyID) (hu : Keygen.buildIds pIDs 0 k = some u) (pos : Nat → Nat)
    (hid : ∀ (j : Nat) (id : PartyID), (PartyID.SortPartyIDs u none)[j]? = some id →
      pos j < S.n ∧ id.key = some (intBytes (H.kv (pos j))))
    (hout : ∃ j, j < k ∧ k ≤ pos j) (r : Reg) (key : Bytes) :
    NewLocalParty e r key { S.args i with
      partyCount := k
      pIDs := pIDs } = (.panic, r) := by
  have hl : (PartyID.SortPartyIDs u none).length = k := by
    rw [Keygen.sort_length]; exact ((Keygen.buildIds_eq_some _ _ _ _).mp hu).1
  obtain ⟨-, c2, -, c4⟩ := H.count i hi
  have hti : (S.args i).partyIndex.toNat = i := by rw [c2]; rfl
  obtain ⟨kb, k1, k2⟩ := H.keyData i hi
  obtain ⟨b, b1, -⟩ := H.refresh i hi
  have at_ : ∀ (j : Nat) (a : Int), (H.d i).ks[j]? = some (some a) → j < S.n ∧ a = H.kv j := by
    intro j a h
    rw [H.ks i hi] at h
    by_cases hj : j < S.n
    · simp [hj] at h; exact ⟨hj, h.symm⟩
    · rw [List.getElem?_eq_none (by simp; omega)] at h; cases h
  refine C114_others_crash (ids := PartyID.SortPartyIDs u none) ⟨?_, u, ?_, rfl, ?_, ?_⟩ e r key kb b (H.d i) k1 k2 ?_ ?_ pos ?_ ?_ ?_
    (H.code i) (H.x0 i) (Ed.lawful.pt (H.x0 i • Ed.B)) H.grp ?_ (H.priv i hi).1 ?_ (H.group i hi) ?_ ?_ b1
  · show (0 : Int) ≤ (k : Int); omega
  · exact hu
  · show 0 ≤ (S.args i).partyIndex; rw [c2]; omega
  · show (S.args i).partyIndex < _; rw [c2, hl]; omega
  · intro a ha
    rw [H.ks i hi] at ha
    obtain ⟨j, -, rfl⟩ := List.mem_map.mp ha
    simp
  · intro a c va vc ha hc hv
    obtain ⟨a1, rfl⟩ := at_ a va ha
    obtain ⟨c1, rfl⟩ := at_ c vc hc
    exact H.idInj a c a1 c1 hv
  · intro j id hj
    obtain ⟨p1, p2⟩ := hid j id hj
    exact ⟨H.kv (pos j), by rw [H.ks i hi]; simp [p1], p2⟩
  · obtain ⟨j, j1, j2⟩ := hout
    exact ⟨j, by omega, by show (k : Int) ≤ _; omega⟩
  · show (split 47 (S.args i).path).length = 5
    rw [c4]; exact H.pathLen
  · show (H.d i).chainCodes[(S.args i).partyIndex.toNat]? = _
    rw [hti, H.codes i hi]; simp [hi]
  · show (H.d i).pubXj[(S.args i).partyIndex.toNat]? = _
    rw [hti, H.pub i hi]; simp [hi]
  · show ∃ q, Ckd.deriveEddsaChildPrivKey _ _ _ _ _ (S.args i).path = _
    rw [c4]; exact ⟨_, H.derive i hi⟩
  · show ∃ pubs, derivePubs _ _ (S.args i).path _ _ = _
    rw [c4, H.pub i hi, H.codes i hi]
    exact ⟨_, derivePubs_of e.ckd H.grp H.path (fun j => Ed.lawful.pt (H.x0 j • Ed.B))
      (fun j => Ed.lawful.pt (H.x j • Ed.B)) H.code (List.range S.n)
      (fun j hj => H.signers.derivePub j (List.mem_range.mp hj))⟩

end Tss.Onsign
