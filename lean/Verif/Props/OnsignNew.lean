import Verif.Lemmas.OnsignFinal
import Verif.Props.Onsign
import Verif.Props.Ckd
import Verif.Props.SaveData
/-
Signing: creation of a party and the message it signs (properties C50, C56).
-/
namespace Tss.Onsign
open Tss Text Wire RangeProofs

/-! ### C50: what a successful creation does -/

/-- Public derivation succeeds only on paths without hardened components. -/
theorem derivePubLoopD_nonhardened (E : Ckd.Env) : ∀ (parts : List Bytes) (pk k : Ckd.KeyD),
    Ckd.derivePubLoopD E pk parts = .ok k → ∀ part ∈ parts, part.getLast? ≠ some 39
  | [], _, _, _ => by simp
  | part :: t, pk, k, h => by
    unfold Ckd.derivePubLoopD at h
    split at h
    · cases h
    · cases h
    · next i hpart =>
      split at h
      · cases h
      · cases h
      · next child hc =>
        intro q hq
        rcases List.mem_cons.mp hq with rfl | hq
        · intro h39
          unfold Ckd.parsePartPub at hpart
          rw [h39] at hpart
          simp at hpart
        · exact derivePubLoopD_nonhardened E t _ _ h q hq

theorem pub_nonhardened {E : Ckd.Env} {X deduce Q : ECPoint} {code path : Bytes}
    (h : Ckd.deriveEddsaChildPubKey E X deduce code path = .ok Q) : Ckd.spec.NonHardened path := by
  unfold Ckd.deriveEddsaChildPubKey at h
  split at h
  · next q hq =>
    unfold Ckd.derivePublicKeyForPathD at hq
    have : Ckd.pathParts (Ckd.newExtendKeyD E [] X deduce 0 0 code).depth path = some (split 47 path) := by
      simp [Ckd.pathParts, Ckd.newExtendKeyD]
    rw [this] at hq
    simp only at hq
    split at hq
    · cases hq
    · cases hq
    · next k hk => exact fun part hp => derivePubLoopD_nonhardened E _ _ _ hk part hp
  · cases h
  · cases h

theorem parseRefresh_length (b tail : Bytes) : ∀ (n j : Nat) l1 l2, parseRefresh b tail j n = some (l1, l2) →
    l1.length = n ∧ l2.length = n
  | 0, j, l1, l2, h => by simp [parseRefresh] at h; simp [← h.1, ← h.2]
  | n + 1, j, l1, l2, h => by
    unfold parseRefresh at h
    split at h
    · split at h
      · next l1' l2' h' =>
        obtain ⟨g1, g2⟩ := parseRefresh_length b tail n _ _ _ h'
        simp only [Option.some.injEq, Prod.mk.injEq] at h
        rw [← h.1, ← h.2]; simp [g1, g2]
      · cases h
    · cases h

/-- C50. A failed creation (error or crash) registers nothing and changes nothing. -/
theorem C50_failure_keeps (e : Env) (r : Reg) (key : Bytes) (a : NewArgs) (h : (NewLocalParty e r key a).1 ≠ .ok ()) :
    (NewLocalParty e r key a).2 = r := by
  rcases new_cases e r key a with ⟨o, -, h1⟩ | ⟨uIds, kb, d, keys, m, -, -, -, -, -, -, -, h1⟩
  · rw [h1]
  · rw [h1] at h; exact absurd rfl h

/-- C50. A successful creation. The save data `d` came from base64 JSON, the path had five components, the message was
hex; the registered party holds the message as an integer, the sorted ids, empty message stores and no nonce; its
private share is the derivation of the stored share with the party's own chain code, and every public share is the
derivation of a stored public share with the chain code of the same party. -/
theorem C50_created {e : Env} {r r' : Reg} {key : Bytes} {a : NewArgs} (h : NewLocalParty e r key a = (.ok (), r')) :
    ∃ (uIds : List PartyID) (kb : Bytes) (d : Keygen.SaveData) (m : Bytes) (p : Party) (idx : Nat) (code x : Int)
      (pub deduce : ECPoint) (child kb' : Bytes),
      Keygen.buildIds a.pIDs 0 a.partyCount.toNat = some uIds ∧ b64Decode a.keyData = some kb ∧ e.jsonDec kb = some d ∧
      hexDecode a.msg = some m ∧ (split 47 a.path).length = 5 ∧ a.partyIndex = (idx : Int) ∧
      r' = r.set key (some p) ∧ p.index = idx ∧ p.ids = PartyID.SortPartyIDs uIds none ∧ p.m = (beNat m : Int) ∧
      (∀ j, p.m11.getD j [] = [] ∧ p.m12.getD j [] = [] ∧ p.m2.getD j [] = [] ∧ p.m3.getD j [] = []) ∧
      p.k = none ∧ p.si = none ∧ p.r = none ∧
      d.chainCodes[idx]? = some (some code) ∧ d.privXi = some x ∧ d.pubXj[idx]? = some (some pub) ∧ d.eddsaPub = some deduce ∧
      Ckd.deriveEddsaChildPrivKey e.ckd x pub deduce (intBytes code) a.path = .ok (child, kb') ∧
      p.keys.privXi = some (beNat child : Int) ∧
      (∀ X ∈ p.keys.pubXj, ∃ (j : Nat) (X0 : ECPoint) (c : Int) (Q : ECPoint), d.pubXj[j]? = some (some X0) ∧
        d.chainCodes[j]? = some (some c) ∧ X = some Q ∧ Ckd.deriveEddsaChildPubKey e.ckd X0 deduce (intBytes c) a.path = .ok Q) := by
  rcases new_cases e r key a with ⟨o, ho, h1⟩ | ⟨uIds, kb, d, keys, m, hc, hb, hi, hk, hj, hp, hm, h1⟩
  · rw [h1, Prod.mk.injEq] at h; exact absurd h.1 ho
  · rw [h1, Prod.mk.injEq] at h
    obtain ⟨hl, code, x, pub, deduce, child, kb', pubs, payload, pks, peds, g1, g2, g3, g4, g5, g6, g7, g8, g9⟩ := prepareKeys_ok hp
    unfold Keygen.BuildLocalSaveDataSubset at g9
    cases hmm : Keygen.keysToIndices d.ks 0 (fun _ => none) with
    | none => simp only [hmm] at g9; cases g9
    | some mm =>
      simp only [hmm] at g9
      obtain ⟨f1, f2⟩ := buildLoop_pub _ _ _ _ _ _ g9
      refine ⟨uIds, kb, d, m, _, a.partyIndex.toNat, code, x, pub, deduce, child, kb', hb, hk, hj, hm, hl, by omega, h.2.symm,
        rfl, rfl, rfl, ?_, rfl, rfl, rfl, g1, g2, g3, g4, g5, f2, ?_⟩
      · intro j
        simp only [freshParty]
        have : ∀ n, (List.replicate n ([] : Bytes)).getD j [] = [] := by
          intro n
          rw [List.getD_eq_getElem?_getD, List.getElem?_replicate]
          split <;> rfl
        exact ⟨this _, this _, this _, this _⟩
      · intro X hX
        have hX' := f1 X hX
        simp only at hX'
        obtain ⟨j, hj', hjX⟩ := List.mem_iff_getElem.mp hX'
        obtain ⟨q1, q2⟩ := derivePubs_ok _ _ _ _ _ _ g6
        obtain ⟨X0, c, Q, a1, a2, a3, a4⟩ := q2 j (by omega)
        rw [List.getElem?_eq_getElem hj', hjX] at a3
        exact ⟨j, X0, c, Q, a1, a2, by simpa using a3, a4⟩

/-- C50. Consistency of the derived shares: when the stored share `x` matches the stored public share, the derived
private share is `x` plus an offset modulo the group order, and the public share every party derives for this party is
exactly derived-share times the base point. -/
theorem C50_shares_consistent {e : Env} {x : Int} {pub deduce Q : ECPoint} {code path child kb : Bytes} (h0 : 0 ≤ x)
    (h1 : x < 2 ^ 256) (hp : Ed.curve.On pub) (hd : Ed.curve.On deduce) (hx : Ed.toPt pub.x pub.y = x • Ed.B)
    (hpriv : Ckd.deriveEddsaChildPrivKey e.ckd x pub deduce code path = .ok (child, kb))
    (hpub : Ckd.deriveEddsaChildPubKey e.ckd pub deduce code path = .ok Q) :
    Ed.toPt Q.x Q.y = (beNat child : Int) • Ed.B ∧ ECPoint.scalarBaseMult Ed.curve (beNat child) = some Q ∧
      (beNat child : Int) < Ed.curve.N ∧ ∃ t : Int, (beNat child : Int) = (x + t) % Ed.curve.N ∧
        Ed.toPt Q.x Q.y = Ed.toPt pub.x pub.y + t • Ed.B := by
  have hnh := pub_nonhardened hpub
  obtain ⟨Q', a1, a2, a3, -, a5, -⟩ := (Ckd.C47_eddsa_priv_pub_agree (E := e.ckd) rfl h0 h1 hp hd hx code path hnh).1 child kb hpriv
  rw [a1, Res.ok.injEq] at hpub
  subst hpub
  refine ⟨a3, a2, a5, ?_⟩
  have fb : fillBytes 32 x = some (beFixed 32 x.natAbs) := by
    unfold fillBytes; rw [if_pos (by norm_num; omega)]
  have hb : (beNat (beFixed 32 x.natAbs) : Int) = x := by
    rw [beNat_beFixed, Nat.mod_eq_of_lt (by norm_num; omega)]; omega
  unfold Ckd.deriveEddsaChildPrivKey at hpriv
  rw [fb] at hpriv
  simp only at hpriv
  obtain ⟨t, Q2, -, b2, b3, b4, -, -, b7⟩ := (Ckd.C47_path_general (E := e.ckd) Ed.lawful.toPLawful
    (show e.ckd.curve.N ≤ 2 ^ 256 by change Ed.curve.N ≤ _; decide +kernel)
    (pk := Ckd.newExtendKeyD e.ckd (beFixed 32 x.natAbs) pub deduce 0 0 code) rfl hp hd path).1 child kb hpriv
  have b8 := b7 hnh
  unfold Ckd.deriveEddsaChildPubKey at a1
  have e1 : Ckd.newExtendKeyD e.ckd [] pub deduce 0 0 code =
    (Ckd.newExtendKeyD e.ckd (beFixed 32 x.natAbs) pub deduce 0 0 code).public := rfl
  rw [e1, b8] at a1
  simp only [Res.ok.injEq] at a1
  subst a1
  refine ⟨t, ?_, b4⟩
  have e2 : (Ckd.newExtendKeyD e.ckd (beFixed 32 x.natAbs) pub deduce 0 0 code).priv = beFixed 32 x.natAbs := rfl
  rw [e2, hb] at b2
  exact b2

/-- C50. In a created party whose ids are all the key-generation parties in their order, slot `j` of the public shares is
the derivation of stored share `j`, and if the stored own share matches the own public share then the party's public
share is its private share times the base point. -/
theorem C50_own_share {e : Env} {r r' : Reg} {key : Bytes} {a : NewArgs} (h : NewLocalParty e r key a = (.ok (), r'))
    {kb : Bytes} {d : Keygen.SaveData} (hkb : b64Decode a.keyData = some kb) (hd : e.jsonDec kb = some d)
    (hpres : ∀ k ∈ d.ks, k ≠ none) (hdist : ∀ (i j : Nat) (a b : Int), d.ks[i]? = some (some a) →
      d.ks[j]? = some (some b) → intBytes a = intBytes b → i = j) (hplen : d.pubXj.length = d.ks.length)
    {p : Party} (hr : r' key = some p) (hn : p.ids.length = d.ks.length)
    (hids : ∀ (j : Nat) (id : PartyID), p.ids[j]? = some id → ∃ k, d.ks[j]? = some (some k) ∧ id.key = some (intBytes k))
    {x : Int} {pub deduce : ECPoint} (hx : d.privXi = some x) (hpub : d.pubXj[p.index]? = some (some pub))
    (hded : d.eddsaPub = some deduce) (h0 : 0 ≤ x) (h1 : x < 2 ^ 256) (hp : Ed.curve.On pub) (hdo : Ed.curve.On deduce)
    (hxp : Ed.toPt pub.x pub.y = x • Ed.B) :
    ∃ (x' : Int) (Q : ECPoint), p.keys.privXi = some x' ∧ p.keys.pubXj[p.index]? = some (some Q) ∧ 0 ≤ x' ∧ x' < Ed.curve.N ∧
      Ed.toPt Q.x Q.y = x' • Ed.B ∧ p.keys.pubXj.length = d.pubXj.length ∧
      ∀ j, j < d.pubXj.length → ∃ X0 c Qj, d.pubXj[j]? = some (some X0) ∧ d.chainCodes[j]? = some (some c) ∧
        p.keys.pubXj[j]? = some (some Qj) ∧ Ckd.deriveEddsaChildPubKey e.ckd X0 deduce (intBytes c) a.path = .ok Qj := by
  rcases new_cases e r key a with ⟨o, ho, g0⟩ | ⟨uIds, kb', d', keys, m, hc, hb, hi, hk, hj, hpk, hm, g0⟩
  · rw [g0, Prod.mk.injEq] at h; exact absurd h.1 ho
  rw [g0, Prod.mk.injEq] at h
  rw [hkb] at hk; cases hk
  rw [hd] at hj; cases hj
  have hpe := hr
  rw [← h.2, set_same] at hpe
  cases hpe
  obtain ⟨hl, code, x2, pub2, ded2, child, kb', pubs, payload, pks, peds, g1, g2, g3, g4, g5, g6, g7, g8, g9⟩ := prepareKeys_ok hpk
  rw [hx] at g2; cases g2
  have hpub' : d.pubXj[a.partyIndex.toNat]? = some (some pub) := hpub
  rw [hpub'] at g3; cases g3
  rw [hded] at g4; cases g4
  obtain ⟨q1, q2⟩ := derivePubs_ok _ _ _ _ _ _ g6
  have hlen : pks.length = a.partyCount.toNat ∧ peds.length = a.partyCount.toNat := parseRefresh_length _ _ _ _ _ _ g8
  have hids' : (PartyID.SortPartyIDs uIds none).length = d.ks.length := hn
  have hidn : (PartyID.SortPartyIDs uIds none).length = a.partyCount.toNat := by
    rw [Keygen.sort_length]; exact ((Keygen.buildIds_eq_some _ _ _ _).mp hb).1
  have hfull := Keygen.C59_full_identity { d with
        privXi := some (beNat child : Int)
        pubXj := pubs
        paillierPKs := pks
        ringPedersenPKs := peds } {
      present := hpres
      distinct := hdist
      pub := by simp only [q1]; exact hplen
      pai := by simp only; rw [hlen.1, ← hidn, hids']
      ring := by simp only; rw [hlen.2, ← hidn, hids'] } (PartyID.SortPartyIDs uIds none) hids' hids
  rw [hfull, Res.ok.injEq] at g9
  have hidx : a.partyIndex.toNat < d.pubXj.length := (List.getElem?_eq_some_iff.1 hpub').1
  obtain ⟨X0, c, Q, a1, a2, a3, a4⟩ := q2 _ hidx
  rw [hpub'] at a1; cases a1
  rw [g1] at a2; cases a2
  obtain ⟨c1, -, c3, -⟩ := C50_shares_consistent h0 h1 hp hdo hxp g5 a4
  have ek : keys.pubXj = pubs := by rw [← g9]
  have ex : keys.privXi = some (beNat child : Int) := by rw [← g9]
  refine ⟨beNat child, Q, ex, ?_, by omega, c3, c1, ?_, ?_⟩
  · change keys.pubXj[a.partyIndex.toNat]? = _; rw [ek]; exact a3
  · change keys.pubXj.length = _; rw [ek, q1]
  · intro j hj
    obtain ⟨X0, c, Q, a1, a2, a3, a4⟩ := q2 j hj
    exact ⟨X0, c, Q, a1, a2, by change keys.pubXj[j]? = _; rw [ek]; exact a3, a4⟩

/-! ### C50: errors and crashes -/

/-- The arguments that are checked first are in order: a non-negative count, decimal ids, an index of one of them. -/
def spec.IdsFit (a : NewArgs) (ids : List PartyID) : Prop :=
  0 ≤ a.partyCount ∧ ∃ uIds, Keygen.buildIds a.pIDs 0 a.partyCount.toNat = some uIds ∧
    ids = PartyID.SortPartyIDs uIds none ∧ 0 ≤ a.partyIndex ∧ a.partyIndex < ids.length

theorem new_head {a : NewArgs} {ids : List PartyID} (h : spec.IdsFit a ids) (e : Env) (r : Reg) (key : Bytes) :
    NewLocalParty e r key a =
      match b64Decode a.keyData with
      | none => (.err .base64Keys, r)
      | some kb =>
        match e.jsonDec kb with
        | none => (.err .json, r)
        | some d =>
          match prepareKeys e a.partyIndex.toNat a.partyCount.toNat ids a.refresh a.path d with
          | .err er => (.err er, r)
          | .panic => (.panic, r)
          | .ok keys =>
            match hexDecode a.msg with
            | none => (.err .hexMsg, r)
            | some m => (.ok (), r.set key (some (freshParty a.partyCount.toNat a.partyIndex.toNat ids keys (beNat m)))) := by
  obtain ⟨h1, uIds, h2, rfl, h4, h5⟩ := h
  unfold NewLocalParty
  rw [if_neg (by omega)]
  simp only
  rw [h2]
  simp only
  rw [if_pos ⟨h4, h5⟩]
  rfl

/-- C50. Bad base64 key data is reported. -/
theorem C50_bad_base64 {a : NewArgs} {ids : List PartyID} (h : spec.IdsFit a ids) (e : Env) (r : Reg) (key : Bytes)
    (hb : b64Decode a.keyData = none) : NewLocalParty e r key a = (.err .base64Keys, r) := by
  rw [new_head h, hb]

/-- C50. Bad JSON key data is reported. -/
theorem C50_bad_json {a : NewArgs} {ids : List PartyID} (h : spec.IdsFit a ids) (e : Env) (r : Reg) (key kb : Bytes)
    (hb : b64Decode a.keyData = some kb) (hj : e.jsonDec kb = none) : NewLocalParty e r key a = (.err .json, r) := by
  rw [new_head h, hb]
  simp only
  rw [hj]

/-- C50. A path that does not have exactly five components is reported. -/
theorem C50_bad_path {a : NewArgs} {ids : List PartyID} (h : spec.IdsFit a ids) (e : Env) (r : Reg) (key kb : Bytes)
    {d : Keygen.SaveData} (hb : b64Decode a.keyData = some kb) (hj : e.jsonDec kb = some d)
    (hp : (split 47 a.path).length ≠ 5) :
    NewLocalParty e r key a = (.err (.walletPath a.path), r) ∧
      (Err.walletPath a.path).text = ascii "wallet path err: " ++ a.path := by
  refine ⟨?_, rfl⟩
  rw [new_head h, hb]
  simp only
  rw [hj]
  simp only
  unfold prepareKeys
  rw [if_pos hp]

/-- C50. A message that is not hexadecimal is reported (when everything before it is in order). -/
theorem C50_bad_message {a : NewArgs} {ids : List PartyID} (h : spec.IdsFit a ids) (e : Env) (r : Reg) (key kb : Bytes)
    {d keys : Keygen.SaveData} (hb : b64Decode a.keyData = some kb) (hj : e.jsonDec kb = some d)
    (hk : prepareKeys e a.partyIndex.toNat a.partyCount.toNat ids a.refresh a.path d = .ok keys)
    (hm : hexDecode a.msg = none) : NewLocalParty e r key a = (.err .hexMsg, r) := by
  rw [new_head h, hb]
  simp only
  rw [hj]
  simp only
  rw [hk]
  simp only
  rw [hm]

/-- C50. A hardened path component never creates a party: the public shares cannot be derived. Unless the private
derivation already reports an error, the call crashes. -/
theorem C50_hardened_crashes {a : NewArgs} {ids : List PartyID} (h : spec.IdsFit a ids) (e : Env) (r : Reg) (key kb : Bytes)
    {d : Keygen.SaveData} (hb : b64Decode a.keyData = some kb) (hj : e.jsonDec kb = some d)
    (hp : (split 47 a.path).length = 5) (hh : ¬ Ckd.spec.NonHardened a.path) :
    NewLocalParty e r key a = (.panic, r) ∨ NewLocalParty e r key a = (.err .derivePriv, r) := by
  have key : ∀ (deduce : ECPoint) (l : List (Option ECPoint)) (cs : List (Option Int)), l ≠ [] →
      derivePubs e.ckd deduce a.path l cs = .panic := by
    intro deduce l cs hl
    match l, cs with
    | [], _ => exact absurd rfl hl
    | some X :: t, some c :: cs =>
      unfold derivePubs
      cases hq : Ckd.deriveEddsaChildPubKey e.ckd X deduce (intBytes c) a.path with
      | ok Q => exact absurd (pub_nonhardened hq) hh
      | err er => rfl
      | panic => rfl
    | some X :: t, none :: cs => rfl
    | some X :: t, [] => rfl
    | none :: t, _ => rfl
  rw [new_head h, hb]
  simp only
  rw [hj]
  simp only
  have hprep : prepareKeys e a.partyIndex.toNat a.partyCount.toNat ids a.refresh a.path d = .panic ∨
      prepareKeys e a.partyIndex.toNat a.partyCount.toNat ids a.refresh a.path d = .err .derivePriv := by
    unfold prepareKeys
    rw [if_neg (by simpa using hp)]
    split
    · next code x pub deduce g1 g2 g3 g4 =>
      have hne : d.pubXj ≠ [] := by rintro h0; rw [h0] at g3; simp at g3
      generalize Ckd.deriveEddsaChildPrivKey e.ckd x pub deduce (intBytes code) a.path = o
      rcases o with ⟨child, kb'⟩ | er | _
      · simp only
        rw [key deduce _ _ hne]
        exact .inl rfl
      · exact .inr rfl
      · exact .inl rfl
    · exact .inl rfl
  rcases hprep with h | h
  · rw [h]; exact .inl rfl
  · rw [h]; exact .inr rfl

/-- Reading the moduli succeeds exactly when the payload (with what lies behind it in memory) is long enough, and reads
them at fixed offsets. -/
theorem parseRefresh_spec (b tail : Bytes) : ∀ (n j : Nat),
    (parseRefresh b tail j n = none ↔ 0 < n ∧ (b ++ tail).length < j + 673 * n) ∧
    ∀ l1 l2, parseRefresh b tail j n = some (l1, l2) → ∀ i, i < n →
      l1[i]? = some (some (beNat (((b ++ tail).take (j + 673 * i + 289)).drop (j + 673 * i + 33)) : Int)) ∧
      l2[i]? = some (some ((beNat (((b ++ tail).take (j + 673 * i + 417)).drop (j + 673 * i + 289)) : Int),
        (beNat (((b ++ tail).take (j + 673 * i + 545)).drop (j + 673 * i + 417)) : Int),
        (beNat (((b ++ tail).take (j + 673 * i + 673)).drop (j + 673 * i + 545)) : Int)))
  | 0, j => by simp [parseRefresh]
  | n + 1, j => by
    obtain ⟨ih1, ih2⟩ := parseRefresh_spec b tail n (j + 673)
    by_cases hl : j + 673 ≤ (b ++ tail).length
    · unfold parseRefresh sliceCap
      generalize hbt : b ++ tail = bt at *
      simp only [show j + 289 ≤ bt.length by omega, show j + 417 ≤ bt.length by omega,
        show j + 545 ≤ bt.length by omega, hl, if_true]
      cases hp : parseRefresh b tail (j + 673) n with
      | none =>
        have := ih1.mp hp
        refine ⟨⟨fun _ => ⟨by omega, by omega⟩, fun _ => rfl⟩, fun l1 l2 h => by simp at h⟩
      | some q =>
        obtain ⟨q1, q2⟩ := q
        refine ⟨⟨fun h => by simp at h, fun h => ?_⟩, ?_⟩
        · exfalso
          have : ¬ (0 < n ∧ bt.length < j + 673 + 673 * n) := by
            intro hc; rw [← ih1, hp] at hc; simp at hc
          omega
        · intro l1 l2 h i hi
          simp only [Option.some.injEq, Prod.mk.injEq] at h
          rw [← h.1, ← h.2]
          cases i with
          | zero => simp
          | succ i =>
            have := ih2 q1 q2 hp i (by omega)
            simp only [List.getElem?_cons_succ]
            have e1 : j + 673 + 673 * i = j + 673 * (i + 1) := by omega
            rw [← e1]
            exact this
    · have : parseRefresh b tail j (n + 1) = none := by
        unfold parseRefresh
        split
        · next h4 => simp [sliceCap] at h4; simp at hl; omega
        · rfl
      rw [this]
      refine ⟨⟨fun _ => ⟨by omega, by omega⟩, fun _ => rfl⟩, fun l1 l2 h => by simp at h⟩

/-- C50. The layout of the refresh payload: party `j`'s Paillier modulus is the 256 bytes at offset 1376 + 673 j + 33, its
ring-Pedersen modulus and bases the three 128-byte blocks after it. A created party with all key-generation parties in
order holds exactly these. -/
theorem C50_refresh_layout {e : Env} {idx n : Nat} {ids : List PartyID} {refresh path : Bytes} {d keys : Keygen.SaveData}
    (h : prepareKeys e idx n ids refresh path d = .ok keys) (hlen : ids.length = d.ks.length) (hn : ids.length = n)
    (hpres : ∀ k ∈ d.ks, k ≠ none) (hdist : ∀ (i j : Nat) (a b : Int), d.ks[i]? = some (some a) →
      d.ks[j]? = some (some b) → intBytes a = intBytes b → i = j) (hplen : d.pubXj.length = d.ks.length)
    (hids : ∀ (j : Nat) (id : PartyID), ids[j]? = some id → ∃ k, d.ks[j]? = some (some k) ∧ id.key = some (intBytes k))
    {payload : Bytes} (hp : hexDecode refresh = some payload) (hl : 1376 + 673 * n ≤ payload.length) (j : Nat) (hj : j < n) :
    keys.paillierPKs[j]? = some (some (beNat ((payload.drop (1376 + 673 * j + 33)).take 256) : Int)) ∧
    keys.ringPedersenPKs[j]? = some (some ((beNat ((payload.drop (1376 + 673 * j + 289)).take 128) : Int),
      (beNat ((payload.drop (1376 + 673 * j + 417)).take 128) : Int),
      (beNat ((payload.drop (1376 + 673 * j + 545)).take 128) : Int))) := by
  obtain ⟨-, code, x, pub, deduce, child, kb', pubs, payload', pks, peds, g1, g2, g3, g4, g5, g6, g7, g8, g9⟩ := prepareKeys_ok h
  rw [hp] at g7; cases g7
  obtain ⟨q1, q2⟩ := derivePubs_ok _ _ _ _ _ _ g6
  have hlen2 := parseRefresh_length _ _ _ _ _ _ g8
  have hfull := Keygen.C59_full_identity { d with
        privXi := some (beNat child : Int)
        pubXj := pubs
        paillierPKs := pks
        ringPedersenPKs := peds } {
      present := hpres
      distinct := hdist
      pub := by simp only [q1]; exact hplen
      pai := by simp only; rw [hlen2.1, ← hn, hlen]
      ring := by simp only; rw [hlen2.2, ← hn, hlen] } ids hlen hids
  rw [hfull, Res.ok.injEq] at g9
  have e1 : keys.paillierPKs = pks := by rw [← g9]
  have e2 : keys.ringPedersenPKs = peds := by rw [← g9]
  rw [e1, e2]
  have hs := (parseRefresh_spec payload (e.hexTail refresh) n 1376).2 pks peds g8 j hj
  have sl : ∀ a c, a + c ≤ payload.length → ((payload ++ e.hexTail refresh).take (a + c)).drop a = (payload.drop a).take c := by
    intro a c hac
    rw [List.take_append_of_le_length hac, List.drop_take, Nat.add_sub_cancel_left]
  have hjn : 673 * j + 673 ≤ 673 * n := by omega
  rw [show 1376 + 673 * j + 289 = (1376 + 673 * j + 33) + 256 from rfl, sl _ _ (by omega),
    show 1376 + 673 * j + 33 + 256 = 1376 + 673 * j + 289 from rfl,
    show 1376 + 673 * j + 417 = (1376 + 673 * j + 289) + 128 from rfl, sl _ _ (by omega),
    show 1376 + 673 * j + 289 + 128 = 1376 + 673 * j + 417 from rfl,
    show 1376 + 673 * j + 545 = (1376 + 673 * j + 417) + 128 from rfl, sl _ _ (by omega),
    show 1376 + 673 * j + 417 + 128 = 1376 + 673 * j + 545 from rfl,
    show 1376 + 673 * j + 673 = (1376 + 673 * j + 545) + 128 from rfl, sl _ _ (by omega)] at hs
  exact hs

/-- C50. A refresh payload that is too short even with the bytes behind it in memory never creates a party. -/
theorem C50_short_refresh_fails {a : NewArgs} (e : Env) (r : Reg) (key payload : Bytes) (hr : hexDecode a.refresh = some payload)
    (hn : 0 < a.partyCount) (hl : payload.length + (e.hexTail a.refresh).length < 1376 + 673 * a.partyCount.toNat) :
    (NewLocalParty e r key a).1 ≠ .ok () := by
  intro h
  rcases new_cases e r key a with ⟨o, ho, g0⟩ | ⟨uIds, kb', d', keys, m, hc, hb, hi, hk, hj, hpk, hm, g0⟩
  · rw [g0] at h; exact ho h
  · obtain ⟨-, code, x, pub, deduce, child, kb', pubs, payload', pks, peds, g1, g2, g3, g4, g5, g6, g7, g8, g9⟩ := prepareKeys_ok hpk
    rw [hr] at g7; cases g7
    have := (parseRefresh_spec payload (e.hexTail a.refresh) a.partyCount.toNat 1376).1.mpr
      ⟨by omega, by rw [List.length_append]; exact hl⟩
    rw [this] at g8; cases g8

/-! ### C56 -/

theorem beNat_zeros (k : Nat) (b : Bytes) : beNat (List.replicate k 0 ++ b) = beNat b := by
  induction k with
  | zero => rfl
  | succ k ih => rw [List.replicate_succ, List.cons_append]; rw [← ih]; simp [beNat]

/-- C56. Messages that differ only in leading zero bytes create the same party. -/
theorem C56_leading_zeros_same_party (e : Env) (r : Reg) (key : Bytes) (a : NewArgs) (m1 m2 b : Bytes) (k : Nat)
    (h1 : hexDecode m1 = some (List.replicate k 0 ++ b)) (h2 : hexDecode m2 = some b) :
    NewLocalParty e r key { a with msg := m1 } = NewLocalParty e r key { a with msg := m2 } := by
  unfold NewLocalParty
  simp only [h1, h2, beNat_zeros]

/-- C56. The bytes that are hashed and signed are the message without its leading zero bytes. -/
theorem C56_signed_bytes (b : Bytes) : intBytes (beNat b : Int) = b.dropWhile (· = 0) := by
  have hspl : ∀ b : Bytes, ∃ k, b = List.replicate k 0 ++ b.dropWhile (· = 0) := by
    intro b
    induction b with
    | nil => exact ⟨0, rfl⟩
    | cons x t ih =>
      by_cases hx : x = 0
      · obtain ⟨k, hk⟩ := ih
        refine ⟨k + 1, ?_⟩
        rw [List.dropWhile_cons_of_pos (by simpa using hx), List.replicate_succ, List.cons_append, ← hk, hx]
      · exact ⟨0, by rw [List.dropWhile_cons_of_neg (by simpa using hx)]; rfl⟩
  obtain ⟨k, hk⟩ := hspl b
  have hn : beNat b = beNat (b.dropWhile (· = 0)) := by
    conv => lhs; rw [hk]
    exact beNat_zeros k _
  rw [hn]
  generalize hb' : b.dropWhile (· = 0) = c
  have hc : c.head? ≠ some 0 := by
    rw [← hb']
    intro h0
    have := List.head?_dropWhile_not (p := fun x : UInt8 => decide (x = 0)) b
    rw [h0] at this
    simp at this
  exact natBE_beNat_of_head c hc

end Tss.Onsign
