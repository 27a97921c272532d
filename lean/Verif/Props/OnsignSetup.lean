import Verif.Lemmas.OnsignFacts
import Verif.Props.OnsignNew
import Verif.Props.RangeProofsEx
import Verif.Lemmas.Paillier
/-! Honest signing: conditions on the inputs and the random draws (C55), and that they give what
`Lemmas/OnsignFacts.lean` needs. -/
namespace Tss.Onsign
open Tss Text Wire RangeProofs

/-- Honest signers that are the first `S.n` of the `total` parties of key generation (in index order): as `Honest` below,
with key-generation data of all `total` parties.  The signers hold their own shares `x0 i` only; the shares of the absent
parties are named to say what the public data are. -/
structure Signers (e : Env) (S : Session) where
  pIDs : List Bytes
  ids : List PartyID
  d : Nat → Keygen.SaveData
  kv : Nat → Int
  code : Nat → Int
  x0 : Nat → Int
  grp : ECPoint
  path : Bytes
  child : Nat → Bytes
  kb : Nat → Bytes
  msg : Bytes
  N : Nat → Nat
  pn : Nat → Nat
  ps : Nat → Nat
  pt : Nat → Nat
  total : Nat
  fits : S.n ≤ total
  keyInj : ∀ i j, i < S.n → j < S.n → S.key i = S.key j → i = j
  count : ∀ i, i < S.n → (S.args i).partyCount = S.n ∧ (S.args i).partyIndex = i ∧ (S.args i).pIDs = pIDs ∧
    (S.args i).path = path
  idsOk : ∃ u, Keygen.buildIds pIDs 0 S.n = some u ∧ ids = PartyID.SortPartyIDs u none
  idKey : ∀ (j : Nat) (id : PartyID), ids[j]? = some id → id.key = some (intBytes (kv j))
  idInj : ∀ i j, i < total → j < total → intBytes (kv i) = intBytes (kv j) → i = j
  keyData : ∀ i, i < S.n → ∃ b, b64Decode (S.args i).keyData = some b ∧ e.jsonDec b = some (d i)
  ks : ∀ i, i < S.n → (d i).ks = (List.range total).map fun j => some (kv j)
  priv : ∀ i, i < S.n → (d i).privXi = some (x0 i)
  share : ∀ i, i < total → 0 ≤ x0 i ∧ x0 i < 2 ^ 256
  pub : ∀ i, i < S.n → (d i).pubXj = (List.range total).map fun j => some (Ed.lawful.pt (x0 j • Ed.B))
  codes : ∀ i, i < S.n → (d i).chainCodes = (List.range total).map fun j => some (code j)
  group : ∀ i, i < S.n → (d i).eddsaPub = some grp
  groupOn : Ed.curve.On grp
  pathLen : (split 47 path).length = 5
  soft : Ckd.spec.NonHardened path
  derive : ∀ i, i < total → Ckd.deriveEddsaChildPrivKey e.ckd (x0 i) (Ed.lawful.pt (x0 i • Ed.B)) grp (intBytes (code i)) path =
    .ok (child i, kb i)
  refresh : ∀ i, i < S.n → ∃ b, hexDecode (S.args i).refresh = some b ∧ 1376 + 673 * S.n ≤ b.length ∧ ∀ j, j < S.n →
    N j = beNat ((b.drop (1376 + 673 * j + 33)).take 256) ∧ pn j = beNat ((b.drop (1376 + 673 * j + 289)).take 128) ∧
    ps j = beNat ((b.drop (1376 + 673 * j + 417)).take 128) ∧ pt j = beNat ((b.drop (1376 + 673 * j + 545)).take 128)
  message : ∀ i, i < S.n → hexDecode (S.args i).msg = some msg
  moduli : ∀ i, i < S.n → 0 < N i ∧ 0 < pn i ∧ Nat.gcd (ps i) (pn i) = 1 ∧ Nat.gcd (pt i) (pn i) = 1
  nonce : ∀ i, i < S.n → 0 ≤ (S.rnd i).k ∧ (S.rnd i).k < N i ∧ (S.rnd i).k < 2 ^ 256 ∧ Int.gcd (S.rnd i).rho (N i) = 1
  encUnit : ∀ i j, i < S.n → j < S.n → Int.gcd ((S.rnd i).enc j).r (N i) = 1 ∧
    |((S.rnd i).enc j).alpha| + Ed.curve.N * (S.rnd i).k ≤ 2 * 2 ^ proofParameter.lAddEpsilon
  logUnit : ∀ i j, i < S.n → j < S.n → Int.gcd (S.draws i j).r (N i) = 1 ∧
    |(S.draws i j).alpha| + Ed.curve.N * (S.rnd i).k ≤ 2 * 2 ^ proofParameter.lAddEpsilon
  encFresh : ∀ i j K, i < S.n → j < S.n → Paillier.cipher (N i) (S.rnd i).k (S.rnd i).rho = some K →
    let o := NewEncryptRangeMessage e.Hb proofParameter (context ssidConst i) K (N i) (S.rnd i).k (S.rnd i).rho
      (pn j, ps j, pt j) ((S.rnd i).enc j)
    o ≠ .err .exceedMaxRetry ∧ ∀ m, o = .ok m → (encMarshal m).length < 2 ^ 60
  logFresh : ∀ i j K, i < S.n → j < S.n → Paillier.cipher (N i) (S.rnd i).k (S.rnd i).rho = some K →
    let o := NewKnowExponent e.Hb Ed.curve proofParameter (context ssidConst i) (S.rnd i).k (S.rnd i).rho K (N i)
      (pn j, ps j, pt j) (Ed.lawful.pt ((S.rnd i).k • Ed.B)) ⟨Ed.curve.Gx, Ed.curve.Gy⟩ (S.draws i j)
    o ≠ .err .exceedMaxRetry ∧ ∀ m, o = .ok m → (logMarshal m).length < 2 ^ 60
  zs : ∀ i j, i < S.n → j < S.n → Ed.fe (S.zs i j) % Ed.P ≠ 0
  json : ∀ sd, (e.jsonSig sd).isSome = true

/-- An honest session, in terms of the arguments of the creation calls and of the random draws.

Inputs: different registry keys; the full set of key-generation parties, in index order; key-generation data that
belong together (each party has the integer share matching its public share); the same path of five non-hardened
components on which the derivation succeeds; refresh payloads that carry the same moduli and bases; the same message.

Draws: the nonce is below the modulus (and 256 bits), the encryption randomness and the proof randomness are units, the
proof masks leave room for the response, the challenge sampling does not exhaust its retries, the random denominators
of round 3 are not zero modulo the field prime. -/
structure Honest (e : Env) (S : Session) where
  pIDs : List Bytes
  ids : List PartyID
  d : Nat → Keygen.SaveData
  kv : Nat → Int
  code : Nat → Int
  x0 : Nat → Int
  grp : ECPoint
  path : Bytes
  child : Nat → Bytes
  kb : Nat → Bytes
  msg : Bytes
  N : Nat → Nat
  pn : Nat → Nat
  ps : Nat → Nat
  pt : Nat → Nat
  keyInj : ∀ i j, i < S.n → j < S.n → S.key i = S.key j → i = j
  count : ∀ i, i < S.n → (S.args i).partyCount = S.n ∧ (S.args i).partyIndex = i ∧ (S.args i).pIDs = pIDs ∧
    (S.args i).path = path
  idsOk : ∃ u, Keygen.buildIds pIDs 0 S.n = some u ∧ ids = PartyID.SortPartyIDs u none
  idKey : ∀ (j : Nat) (id : PartyID), ids[j]? = some id → id.key = some (intBytes (kv j))
  idInj : ∀ i j, i < S.n → j < S.n → intBytes (kv i) = intBytes (kv j) → i = j
  keyData : ∀ i, i < S.n → ∃ b, b64Decode (S.args i).keyData = some b ∧ e.jsonDec b = some (d i)
  ks : ∀ i, i < S.n → (d i).ks = (List.range S.n).map fun j => some (kv j)
  priv : ∀ i, i < S.n → (d i).privXi = some (x0 i) ∧ 0 ≤ x0 i ∧ x0 i < 2 ^ 256
  pub : ∀ i, i < S.n → (d i).pubXj = (List.range S.n).map fun j => some (Ed.lawful.pt (x0 j • Ed.B))
  codes : ∀ i, i < S.n → (d i).chainCodes = (List.range S.n).map fun j => some (code j)
  group : ∀ i, i < S.n → (d i).eddsaPub = some grp
  groupOn : Ed.curve.On grp
  pathLen : (split 47 path).length = 5
  soft : Ckd.spec.NonHardened path
  derive : ∀ i, i < S.n → Ckd.deriveEddsaChildPrivKey e.ckd (x0 i) (Ed.lawful.pt (x0 i • Ed.B)) grp (intBytes (code i)) path =
    .ok (child i, kb i)
  refresh : ∀ i, i < S.n → ∃ b, hexDecode (S.args i).refresh = some b ∧ 1376 + 673 * S.n ≤ b.length ∧ ∀ j, j < S.n →
    N j = beNat ((b.drop (1376 + 673 * j + 33)).take 256) ∧ pn j = beNat ((b.drop (1376 + 673 * j + 289)).take 128) ∧
    ps j = beNat ((b.drop (1376 + 673 * j + 417)).take 128) ∧ pt j = beNat ((b.drop (1376 + 673 * j + 545)).take 128)
  message : ∀ i, i < S.n → hexDecode (S.args i).msg = some msg
  moduli : ∀ i, i < S.n → 0 < N i ∧ 0 < pn i ∧ Nat.gcd (ps i) (pn i) = 1 ∧ Nat.gcd (pt i) (pn i) = 1
  nonce : ∀ i, i < S.n → 0 ≤ (S.rnd i).k ∧ (S.rnd i).k < N i ∧ (S.rnd i).k < 2 ^ 256 ∧ Int.gcd (S.rnd i).rho (N i) = 1
  encUnit : ∀ i j, i < S.n → j < S.n → Int.gcd ((S.rnd i).enc j).r (N i) = 1 ∧
    |((S.rnd i).enc j).alpha| + Ed.curve.N * (S.rnd i).k ≤ 2 * 2 ^ proofParameter.lAddEpsilon
  logUnit : ∀ i j, i < S.n → j < S.n → Int.gcd (S.draws i j).r (N i) = 1 ∧
    |(S.draws i j).alpha| + Ed.curve.N * (S.rnd i).k ≤ 2 * 2 ^ proofParameter.lAddEpsilon
  encFresh : ∀ i j K, i < S.n → j < S.n → Paillier.cipher (N i) (S.rnd i).k (S.rnd i).rho = some K →
    let o := NewEncryptRangeMessage e.Hb proofParameter (context ssidConst i) K (N i) (S.rnd i).k (S.rnd i).rho
      (pn j, ps j, pt j) ((S.rnd i).enc j)
    o ≠ .err .exceedMaxRetry ∧ ∀ m, o = .ok m → (encMarshal m).length < 2 ^ 60
  logFresh : ∀ i j K, i < S.n → j < S.n → Paillier.cipher (N i) (S.rnd i).k (S.rnd i).rho = some K →
    let o := NewKnowExponent e.Hb Ed.curve proofParameter (context ssidConst i) (S.rnd i).k (S.rnd i).rho K (N i)
      (pn j, ps j, pt j) (Ed.lawful.pt ((S.rnd i).k • Ed.B)) ⟨Ed.curve.Gx, Ed.curve.Gy⟩ (S.draws i j)
    o ≠ .err .exceedMaxRetry ∧ ∀ m, o = .ok m → (logMarshal m).length < 2 ^ 60
  zs : ∀ i j, i < S.n → j < S.n → Ed.fe (S.zs i j) % Ed.P ≠ 0
  json : ∀ sd, (e.jsonSig sd).isSome = true

/-! ### texts of numbers survive the wire -/

theorem validUTF8_ascii : ∀ (b : Bytes), (∀ c ∈ b, c.toNat < 128) → validUTF8 b = true
  | [], _ => by simp [validUTF8]
  | c :: t, h => by
    have hc := h c (by simp)
    have ih := validUTF8_ascii t fun x hx => h x (by simp [hx])
    unfold validUTF8
    simp only [show c.toNat < 0x80 from hc, if_true]
    exact ih

theorem bigString_utf8 (z : Int) : validUTF8 (bigString z) = true := by
  apply validUTF8_ascii
  intro c hc
  have hd : ∀ c ∈ itoa z.natAbs, c.toNat < 128 := fun c hc => by have := itoa_digits z.natAbs c hc; omega
  unfold bigString at hc
  split at hc
  · rcases List.mem_cons.mp hc with rfl | hc
    · decide
    · exact hd c hc
  · exact hd c hc

theorem encField_length_ge (k : Nat) (b : Bytes) : b.length ≤ (encField k b).length := by
  unfold encField
  split
  · next h => simp [h]
  · simp only [List.length_append]; omega

theorem enc_roundtrip (m : EncMsg) (h1 : validUTF8 m.z1 = true) (h3 : validUTF8 m.z3 = true)
    (hl : (encMarshal m).length < 2 ^ 64) : encUnmarshal (encMarshal m) = some m := by
  have e : encMarshal m = encFields (sing 1 m.salt ++ sing 2 m.S ++ sing 3 m.A ++ sing 4 m.C ++ sing 5 m.z1 ++
      sing 6 m.z2 ++ sing 7 m.z3) := by
    simp only [encFields_append, ← encField_eq]; rfl
  have g1 := encField_length_ge 1 m.salt
  have g2 := encField_length_ge 2 m.S
  have g3 := encField_length_ge 3 m.A
  have g4 := encField_length_ge 4 m.C
  have g5 := encField_length_ge 5 m.z1
  have g6 := encField_length_ge 6 m.z2
  have g7 := encField_length_ge 7 m.z3
  unfold encMarshal at hl
  simp only [List.length_append] at hl
  have ok : FieldsOk (sing 1 m.salt ++ sing 2 m.S ++ sing 3 m.A ++ sing 4 m.C ++ sing 5 m.z1 ++
      sing 6 m.z2 ++ sing 7 m.z3) := by
    repeat' apply FieldsOk_append
    all_goals exact FieldsOk_sing (by norm_num) (by norm_num) (by omega)
  unfold encUnmarshal
  rw [e, parseFields_enc _ ok]
  simp only [List.map_append, stringsOk, getRepeated_append]
  have ne : ∀ k n (b : Bytes), n ≠ k → getRepeated k ((sing n b).map fun p => (p.1, WVal.bytes p.2)) = [] :=
    fun k n b h => getRepeated_sing_ne k n b h
  have eq : ∀ k (b : Bytes), getRepeated k ((sing k b).map fun p => (p.1, WVal.bytes p.2)) = if b = [] then [] else [b] :=
    fun k b => getRepeated_sing_eq k b
  have op : ∀ k n (b : Bytes), getBytes.getBytesOpt k ((sing n b).map fun p => (p.1, WVal.bytes p.2)) =
      if n = k ∧ b ≠ [] then some b else none := fun k n b => getBytesOpt_sing k n b
  have ite_b : ∀ b : Bytes, (if b = [] then none else some b).getD [] = b := by
    intro b; split <;> simp_all
  have u : ∀ b : Bytes, validUTF8 b = true → (if b = [] then [] else [b]).all validUTF8 = true := by
    intro b hb; split <;> simp [hb]
  rw [ne 5 1 _ (by decide), ne 5 2 _ (by decide), ne 5 3 _ (by decide), ne 5 4 _ (by decide), ne 5 6 _ (by decide),
    ne 5 7 _ (by decide), ne 7 1 _ (by decide), ne 7 2 _ (by decide), ne 7 3 _ (by decide), ne 7 4 _ (by decide),
    ne 7 5 _ (by decide), ne 7 6 _ (by decide), eq, eq]
  simp only [List.nil_append, List.append_nil, u _ h1, u _ h3, Bool.and_self, if_true, getBytes_eq, getBytesOpt_append, op]
  simp [ite_b]

theorem log_roundtrip (m : LogMsg) (h1 : validUTF8 m.z1 = true) (h3 : validUTF8 m.z3 = true)
    (hl : (logMarshal m).length < 2 ^ 64) : logUnmarshal (logMarshal m) = some m := by
  have e : logMarshal m = encFields (sing 1 m.salt ++ sing 2 m.S ++ sing 3 m.A ++ sing 4 m.Yx ++ sing 5 m.Yy ++
      sing 6 m.D ++ sing 7 m.z1 ++ sing 8 m.z2 ++ sing 9 m.z3) := by
    simp only [encFields_append, ← encField_eq]; rfl
  have g1 := encField_length_ge 1 m.salt
  have g2 := encField_length_ge 2 m.S
  have g3 := encField_length_ge 3 m.A
  have g4 := encField_length_ge 4 m.Yx
  have g5 := encField_length_ge 5 m.Yy
  have g6 := encField_length_ge 6 m.D
  have g7 := encField_length_ge 7 m.z1
  have g8 := encField_length_ge 8 m.z2
  have g9 := encField_length_ge 9 m.z3
  unfold logMarshal at hl
  simp only [List.length_append] at hl
  have ok : FieldsOk (sing 1 m.salt ++ sing 2 m.S ++ sing 3 m.A ++ sing 4 m.Yx ++ sing 5 m.Yy ++
      sing 6 m.D ++ sing 7 m.z1 ++ sing 8 m.z2 ++ sing 9 m.z3) := by
    repeat' apply FieldsOk_append
    all_goals exact FieldsOk_sing (by norm_num) (by norm_num) (by omega)
  unfold logUnmarshal
  rw [e, parseFields_enc _ ok]
  simp only [List.map_append, stringsOk, getRepeated_append]
  have ne : ∀ k n (b : Bytes), n ≠ k → getRepeated k ((sing n b).map fun p => (p.1, WVal.bytes p.2)) = [] :=
    fun k n b h => getRepeated_sing_ne k n b h
  have eq : ∀ k (b : Bytes), getRepeated k ((sing k b).map fun p => (p.1, WVal.bytes p.2)) = if b = [] then [] else [b] :=
    fun k b => getRepeated_sing_eq k b
  have op : ∀ k n (b : Bytes), getBytes.getBytesOpt k ((sing n b).map fun p => (p.1, WVal.bytes p.2)) =
      if n = k ∧ b ≠ [] then some b else none := fun k n b => getBytesOpt_sing k n b
  have ite_b : ∀ b : Bytes, (if b = [] then none else some b).getD [] = b := by
    intro b; split <;> simp_all
  have u : ∀ b : Bytes, validUTF8 b = true → (if b = [] then [] else [b]).all validUTF8 = true := by
    intro b hb; split <;> simp [hb]
  rw [ne 7 1 _ (by decide), ne 7 2 _ (by decide), ne 7 3 _ (by decide), ne 7 4 _ (by decide), ne 7 5 _ (by decide),
    ne 7 6 _ (by decide), ne 7 8 _ (by decide), ne 7 9 _ (by decide), ne 9 1 _ (by decide), ne 9 2 _ (by decide),
    ne 9 3 _ (by decide), ne 9 4 _ (by decide), ne 9 5 _ (by decide), ne 9 6 _ (by decide), ne 9 7 _ (by decide),
    ne 9 8 _ (by decide), eq, eq]
  simp only [List.nil_append, List.append_nil, u _ h1, u _ h3, Bool.and_self, if_true, getBytes_eq, getBytesOpt_append, op]
  simp [ite_b]

/-- the text fields of a created encryption proof are decimal -/
theorem enc_new_text {Hb : Bytes → Bytes} {cfg : ProofConfig} {ssid : Bytes} {K n k rho : Int} {ped : Ped} {d : Draws}
    {m : EncMsg} (h : NewEncryptRangeMessage Hb cfg ssid K n k rho ped d = .ok m) :
    validUTF8 m.z1 = true ∧ validUTF8 m.z3 = true := by
  unfold NewEncryptRangeMessage at h
  split at h
  · cases h
  · split at h
    · split at h
      · split at h
        · rw [← Res.ok.inj h]; exact ⟨bigString_utf8 _, bigString_utf8 _⟩
        · cases h
      · cases h
      · cases h
    · cases h

/-- the text fields of a created log proof are decimal -/
theorem log_new_text {Hb : Bytes → Bytes} {cv : Curve} {cfg : ProofConfig} {ssid : Bytes} {x rho C n : Int} {ped : Ped}
    {X G : ECPoint} {d : Draws} {m : LogMsg} (h : NewKnowExponent Hb cv cfg ssid x rho C n ped X G d = .ok m) :
    validUTF8 m.z1 = true ∧ validUTF8 m.z3 = true := by
  unfold NewKnowExponent at h
  split at h
  · cases h
  · split at h
    · split at h
      · split at h
        · rw [← Res.ok.inj h]; exact ⟨bigString_utf8 _, bigString_utf8 _⟩
        · cases h
      · cases h
      · cases h
    · cases h

/-! ### creation -/

theorem derivePubs_of (E : Ckd.Env) (grp : ECPoint) (path : Bytes) (X Q : Nat → ECPoint) (code : Nat → Int) :
    ∀ l : List Nat, (∀ j ∈ l, Ckd.deriveEddsaChildPubKey E (X j) grp (intBytes (code j)) path = .ok (Q j)) →
      derivePubs E grp path (l.map fun j => some (X j)) (l.map fun j => some (code j)) = .ok (l.map fun j => some (Q j))
  | [], _ => rfl
  | j :: t, h => by
    have h1 := h j (by simp)
    have h2 := derivePubs_of E grp path X Q code t fun x hx => h x (by simp [hx])
    simp only [List.map_cons]
    unfold derivePubs
    rw [h1]
    simp only
    rw [h2]

theorem parseRefresh_of (b tail : Bytes) (n : Nat) (hl : 1376 + 673 * n ≤ b.length) (N pn ps pt : Nat → Nat)
    (h : ∀ j, j < n →
      N j = beNat ((b.drop (1376 + 673 * j + 33)).take 256) ∧ pn j = beNat ((b.drop (1376 + 673 * j + 289)).take 128) ∧
      ps j = beNat ((b.drop (1376 + 673 * j + 417)).take 128) ∧ pt j = beNat ((b.drop (1376 + 673 * j + 545)).take 128)) :
    parseRefresh b tail 1376 n = some ((List.range n).map fun j => some (N j : Int),
      (List.range n).map fun j => some ((pn j : Int), (ps j : Int), (pt j : Int))) := by
  obtain ⟨h1, h2⟩ := parseRefresh_spec b tail n 1376
  cases hp : parseRefresh b tail 1376 n with
  | none =>
    have := h1.mp hp
    rw [List.length_append] at this
    omega
  | some q =>
    obtain ⟨l1, l2⟩ := q
    obtain ⟨e1, e2⟩ := parseRefresh_length _ _ _ _ _ _ hp
    have sl : ∀ a c, a + c ≤ b.length → ((b ++ tail).take (a + c)).drop a = (b.drop a).take c := by
      intro a c hac
      rw [List.take_append_of_le_length hac, List.drop_take, Nat.add_sub_cancel_left]
    have key : ∀ j, j < n → l1[j]? = some (some (N j : Int)) ∧ l2[j]? = some (some ((pn j : Int), (ps j : Int), (pt j : Int))) := by
      intro j hj
      have hs := h2 l1 l2 hp j hj
      obtain ⟨a1, a2, a3, a4⟩ := h j hj
      have hjn : 673 * j + 673 ≤ 673 * n := by omega
      rw [show 1376 + 673 * j + 289 = (1376 + 673 * j + 33) + 256 from rfl, sl _ _ (by omega),
        show 1376 + 673 * j + 33 + 256 = 1376 + 673 * j + 289 from rfl,
        show 1376 + 673 * j + 417 = (1376 + 673 * j + 289) + 128 from rfl, sl _ _ (by omega),
        show 1376 + 673 * j + 289 + 128 = 1376 + 673 * j + 417 from rfl,
        show 1376 + 673 * j + 545 = (1376 + 673 * j + 417) + 128 from rfl, sl _ _ (by omega),
        show 1376 + 673 * j + 417 + 128 = 1376 + 673 * j + 545 from rfl,
        show 1376 + 673 * j + 673 = (1376 + 673 * j + 545) + 128 from rfl, sl _ _ (by omega)] at hs
      rw [a1, a2, a3, a4]
      exact hs
    congr 1
    refine Prod.ext ?_ ?_
    · apply List.ext_getElem?
      intro j
      by_cases hj : j < n
      · rw [(key j hj).1]; simp [hj]
      · rw [List.getElem?_eq_none (by simp only; omega), List.getElem?_eq_none (by simp; omega)]
    · apply List.ext_getElem?
      intro j
      by_cases hj : j < n
      · rw [(key j hj).2]; simp [hj]
      · rw [List.getElem?_eq_none (by simp only; omega), List.getElem?_eq_none (by simp; omega)]

variable {e : Env} {S : Session}

namespace Signers
variable (H : Signers e S)

/-- derived share of party `i` -/
def x (i : Nat) : Int := beNat (H.child i)

/-- the keys a created party holds -/
noncomputable def keys (i : Nat) : Keygen.SaveData :=
  { H.d i with
    privXi := some (H.x i)
    pubXj := (List.range H.total).map fun j => some (Ed.lawful.pt (H.x j • Ed.B))
    paillierPKs := (List.range S.n).map fun j => some (H.N j : Int)
    ringPedersenPKs := (List.range S.n).map fun j => some ((H.pn j : Int), (H.ps j : Int), (H.pt j : Int)) }

theorem lids : H.ids.length = S.n := by
  obtain ⟨u, h1, h2⟩ := H.idsOk
  rw [h2, Keygen.sort_length]
  exact ((Keygen.buildIds_eq_some _ _ _ _).mp h1).1

/-- the public share everybody derives for party `j` -/
theorem derivePub (j : Nat) (hj : j < H.total) :
    Ckd.deriveEddsaChildPubKey e.ckd (Ed.lawful.pt (H.x0 j • Ed.B)) H.grp (intBytes (H.code j)) H.path =
      .ok (Ed.lawful.pt (H.x j • Ed.B)) := by
  obtain ⟨h1, h2⟩ := H.share j hj
  obtain ⟨Q, q1, q2, -⟩ := (Ckd.C47_eddsa_priv_pub_agree (E := e.ckd) rfl h1 h2 (Ed.lawful.on_pt _) H.groupOn
    (Ed.lawful.val_pt (H.x0 j • Ed.B)) (intBytes (H.code j)) H.path H.soft).1 _ _ (H.derive j hj)
  rw [q1]
  rw [scalarBase, Option.some.injEq] at q2
  rw [← q2]
  rfl

theorem x_lt (i : Nat) (hi : i < H.total) : H.x i < Ed.curve.N := by
  obtain ⟨h1, h2⟩ := H.share i hi
  obtain ⟨Q, -, -, -, -, q, -⟩ := (Ckd.C47_eddsa_priv_pub_agree (E := e.ckd) rfl h1 h2 (Ed.lawful.on_pt _) H.groupOn
    (Ed.lawful.val_pt (H.x0 i • Ed.B)) (intBytes (H.code i)) H.path H.soft).1 _ _ (H.derive i hi)
  exact q

theorem prepare (i : Nat) (hi : i < S.n) :
    prepareKeys e i S.n H.ids (S.args i).refresh H.path (H.d i) = .ok (H.keys i) := by
  obtain ⟨b, hb, hl, hslice⟩ := H.refresh i hi
  have hfit := H.fits
  have hit : i < H.total := by omega
  have g1 : (H.d i).chainCodes[i]? = some (some (H.code i)) := by rw [H.codes i hi]; simp [hit]
  have g2 : (H.d i).pubXj[i]? = some (some (Ed.lawful.pt (H.x0 i • Ed.B))) := by rw [H.pub i hi]; simp [hit]
  have g3 := derivePubs_of e.ckd H.grp H.path (fun j => Ed.lawful.pt (H.x0 j • Ed.B)) (fun j => Ed.lawful.pt (H.x j • Ed.B))
    H.code (List.range H.total) (fun j hj => H.derivePub j (List.mem_range.mp hj))
  rw [← H.pub i hi, ← H.codes i hi] at g3
  have g4 := parseRefresh_of b (e.hexTail (S.args i).refresh) S.n hl H.N H.pn H.ps H.pt hslice
  have g5 : Keygen.BuildLocalSaveDataSubset (H.keys i) H.ids = .ok (H.keys i) := by
    have hks : (H.keys i).ks = (List.range H.total).map fun j => some (H.kv j) := H.ks i hi
    have at_ : ∀ j a, (H.keys i).ks[j]? = some (some a) → j < H.total ∧ a = H.kv j := by
      intro j a h
      rw [hks] at h
      by_cases hj : j < H.total
      · simp [hj] at h; exact ⟨hj, h.symm⟩
      · rw [List.getElem?_eq_none (by simp; omega)] at h; cases h
    refine Keygen.prefix_identity _ _ ?_ ?_ ?_ ?_ ?_ ?_ ?_
    · intro k hk
      rw [hks] at hk
      obtain ⟨j, -, rfl⟩ := List.mem_map.mp hk
      simp
    · intro a c u v hu hv huv
      obtain ⟨p1, rfl⟩ := at_ a u hu
      obtain ⟨p2, rfl⟩ := at_ c v hv
      exact H.idInj a c p1 p2 huv
    · rw [hks]; simp [keys]
    · rw [hks, H.lids]; simpa using hfit
    · rw [H.lids]; simp [keys]
    · rw [H.lids]; simp [keys]
    · intro j id hid
      have hj : j < S.n := by
        rw [← H.lids]; exact (List.getElem?_eq_some_iff.1 hid).1
      refine ⟨H.kv j, ?_, H.idKey j id hid⟩
      rw [hks]; simp [show j < H.total by omega]
  unfold prepareKeys
  rw [if_neg (by simpa using H.pathLen), g1, H.priv i hi, g2, H.group i hi]
  simp only
  rw [H.derive i hit]
  simp only
  rw [g3]
  simp only
  rw [hb]
  simp only
  rw [g4]
  simp only
  have : ({
      privXi := some (beNat (H.child i) : Int)
      shareID := (H.d i).shareID
      chainCodes := (H.d i).chainCodes
      ks := (H.d i).ks
      pubXj := (List.range H.total).map fun j => some (Ed.lawful.pt (H.x j • Ed.B))
      eddsaPub := some H.grp
      paillierPKs := (List.range S.n).map fun j => some (H.N j : Int)
      ringPedersenPKs := (List.range S.n).map fun j => some ((H.pn j : Int), (H.ps j : Int), (H.pt j : Int)) } : Keygen.SaveData) =
      H.keys i := by
    unfold keys
    rw [← H.group i hi]
    rfl
  rw [this, g5]

theorem create (i : Nat) (hi : i < S.n) (r : Reg) : NewLocalParty e r (S.key i) (S.args i) =
    (.ok (), r.set (S.key i) (some (freshParty S.n i H.ids (H.keys i) (beNat H.msg : Int)))) := by
  obtain ⟨c1, c2, c3, c4⟩ := H.count i hi
  obtain ⟨u, u1, u2⟩ := H.idsOk
  obtain ⟨b, b1, b2⟩ := H.keyData i hi
  have hfit : spec.IdsFit (S.args i) H.ids := by
    refine ⟨by omega, u, ?_, u2, by omega, ?_⟩
    · rw [c1, c3, Int.toNat_natCast]; exact u1
    · rw [H.lids]; omega
  rw [new_head hfit, b1]
  simp only
  rw [b2]
  simp only
  rw [c1, c2, c4, Int.toNat_natCast, Int.toNat_natCast, H.prepare i hi]
  simp only
  rw [H.message i hi]

/-! ### the proofs -/

/-- ciphertext of the nonce of party `i` -/
theorem cipher (i : Nat) (hi : i < S.n) : ∃ K : Int, Paillier.cipher (H.N i) (S.rnd i).k (S.rnd i).rho = some K ∧ 0 ≤ K ∧
    K < ((H.N i * H.N i : ℕ) : ℤ) ∧
    (K : ZMod (H.N i * H.N i)) = pw (1 + (H.N i : ZMod (H.N i * H.N i))) (S.rnd i).k * ((S.rnd i).rho : ZMod (H.N i * H.N i)) ^ H.N i := by
  obtain ⟨h1, -⟩ := H.moduli i hi
  have : NeZero (H.N i) := ⟨by omega⟩
  obtain ⟨h2, -⟩ := H.nonce i hi
  obtain ⟨K, k1, k2, k3, k4⟩ := Paillier.cipher_some (n := H.N i) (S.rnd i).k (S.rnd i).rho h2
  refine ⟨K, k1, k2, k3, ?_⟩
  rw [k4]
  obtain ⟨kn, hkn⟩ := Int.eq_ofNat_of_zero_le h2
  rw [hkn, pw_natCast]
  rfl

theorem cast_gcd (a b : Nat) (h : Nat.gcd a b = 1) : Int.gcd (a : Int) b = 1 := h

theorem enc (i j : Nat) (hi : i < S.n) (hj : j < S.n) (K : Int)
    (hc : Paillier.cipher (H.N i) (S.rnd i).k (S.rnd i).rho = some K) : ∃ m : EncMsg,
      NewEncryptRangeMessage e.Hb proofParameter (context ssidConst i) K (H.N i) (S.rnd i).k (S.rnd i).rho
        (H.pn j, H.ps j, H.pt j) ((S.rnd i).enc j) = .ok m ∧
      m.verify e.Hb proofParameter (context ssidConst i) K (H.N i) (H.pn j, H.ps j, H.pt j) = .ok () ∧
      encUnmarshal (encMarshal m) = some m ∧ (encMarshal m).length < 2 ^ 60 := by
  obtain ⟨K', c1, -, -, c4⟩ := H.cipher i hi
  rw [hc] at c1; cases c1
  obtain ⟨n1, -, -, -⟩ := H.moduli i hi
  obtain ⟨-, p1, p2, p3⟩ := H.moduli j hj
  obtain ⟨k1, k2, -, k3⟩ := H.nonce i hi
  obtain ⟨u1, u2⟩ := H.encUnit i j hi hj
  obtain ⟨f1, f2⟩ := H.encFresh i j K hi hj hc
  rcases C35_enc_complete e.Hb proofParameter (context ssidConst i) K (S.rnd i).k (S.rnd i).rho (H.N i) (H.pn j) (H.ps j) (H.pt j)
    ((S.rnd i).enc j) n1 p1 (cast_gcd _ _ p2) (cast_gcd _ _ p3) k3 u1 c4 with h | ⟨m, e', h, -⟩
  · exact absurd h f1
  · have hl := f2 m h
    obtain ⟨t1, t2⟩ := enc_new_text h
    refine ⟨m, h, C35_enc_accepted_in_range e.Hb proofParameter (context ssidConst i) K (S.rnd i).k (S.rnd i).rho (H.N i) (H.pn j)
      (H.ps j) (H.pt j) ((S.rnd i).enc j) n1 p1 (cast_gcd _ _ p2) (cast_gcd _ _ p3) k3 u1 c4 ?_ m h,
      enc_roundtrip m t1 t2 (lt_trans hl (by norm_num)), hl⟩
    rw [abs_of_nonneg k1]
    exact u2

theorem log (i j : Nat) (hi : i < S.n) (hj : j < S.n) (K : Int)
    (hc : Paillier.cipher (H.N i) (S.rnd i).k (S.rnd i).rho = some K) : ∃ m : LogMsg,
      NewKnowExponent e.Hb Ed.curve proofParameter (context ssidConst i) (S.rnd i).k (S.rnd i).rho K (H.N i)
        (H.pn j, H.ps j, H.pt j) (Ed.lawful.pt ((S.rnd i).k • Ed.B)) ⟨Ed.curve.Gx, Ed.curve.Gy⟩ (S.draws i j) = .ok m ∧
      m.verify e.Hb Ed.curve proofParameter (context ssidConst i) K (H.N i) (H.pn j, H.ps j, H.pt j)
        (Ed.lawful.pt ((S.rnd i).k • Ed.B)) ⟨Ed.curve.Gx, Ed.curve.Gy⟩ = .ok () ∧
      logUnmarshal (logMarshal m) = some m ∧ (logMarshal m).length < 2 ^ 60 := by
  obtain ⟨K', c1, -, -, c4⟩ := H.cipher i hi
  rw [hc] at c1; cases c1
  obtain ⟨n1, -, -, -⟩ := H.moduli i hi
  obtain ⟨-, p1, p2, p3⟩ := H.moduli j hj
  obtain ⟨k1, k2, -, k3⟩ := H.nonce i hi
  obtain ⟨u1, u2⟩ := H.logUnit i j hi hj
  obtain ⟨f1, f2⟩ := H.logFresh i j K hi hj hc
  rcases C38_log_complete_ed25519 e.Hb (context ssidConst i) (S.rnd i).k (S.rnd i).rho K (H.N i) (H.pn j) (H.ps j) (H.pt j)
    (S.draws i j) n1 p1 (cast_gcd _ _ p2) (cast_gcd _ _ p3) k3 u1 c4 with h | ⟨m, e', h, hl, hu, -, hv⟩
  · exact absurd h f1
  · have hlen := f2 m h
    obtain ⟨t1, t2⟩ := log_new_text h
    refine ⟨m, h, ?_, log_roundtrip m t1 t2 (lt_trans hlen (by norm_num)), hlen⟩
    refine hv.trans (if_pos ?_)
    have h1 : |e' * (S.rnd i).k| ≤ Ed.curve.N * (S.rnd i).k := by
      rw [abs_mul, abs_of_nonneg k1]
      exact mul_le_mul_of_nonneg_right (abs_le.2 ⟨hl, hu⟩) k1
    calc |(S.draws i j).alpha + e' * (S.rnd i).k| ≤ |(S.draws i j).alpha| + |e' * (S.rnd i).k| := abs_add_le _ _
      _ ≤ |(S.draws i j).alpha| + Ed.curve.N * (S.rnd i).k := by linarith
      _ ≤ _ := u2

end Signers

/-- Honest signers have everything the invariant needs. -/
theorem Signers.facts_full (H : Signers e S) : ∃ F : GFacts e S, F.ids = H.ids ∧ F.keys = H.keys ∧
    F.mOf = (fun _ => (beNat H.msg : Int)) ∧ F.x = H.x ∧
    (F.AOf = fun _ => ((List.range H.total).map H.x).sum • Ed.B) ∧ (F.N = fun j => (H.N j : Int)) ∧
    F.ped = fun j => ((H.pn j : Int), (H.ps j : Int), (H.pt j : Int)) := by
  have hfit := H.fits
  have hK : ∀ i, ∃ K : Int, i < S.n → Paillier.cipher (H.N i) (S.rnd i).k (S.rnd i).rho = some K ∧ 0 ≤ K ∧
      K < ((H.N i * H.N i : ℕ) : ℤ) := by
    intro i
    by_cases hi : i < S.n
    · obtain ⟨K, a, b, c, -⟩ := H.cipher i hi
      exact ⟨K, fun _ => ⟨a, b, c⟩⟩
    · exact ⟨0, fun h => absurd h hi⟩
  choose K hK using hK
  have hE : ∀ i j, ∃ m : EncMsg, i < S.n → j < S.n →
      NewEncryptRangeMessage e.Hb proofParameter (context ssidConst i) (K i) (H.N i) (S.rnd i).k (S.rnd i).rho
        (H.pn j, H.ps j, H.pt j) ((S.rnd i).enc j) = .ok m ∧
      m.verify e.Hb proofParameter (context ssidConst i) (K i) (H.N i) (H.pn j, H.ps j, H.pt j) = .ok () ∧
      encUnmarshal (encMarshal m) = some m ∧ (encMarshal m).length < 2 ^ 60 := by
    intro i j
    by_cases hi : i < S.n ∧ j < S.n
    · obtain ⟨m, hm⟩ := H.enc i j hi.1 hi.2 _ (hK i hi.1).1
      exact ⟨m, fun _ _ => hm⟩
    · exact ⟨⟨[], [], [], [], [], [], []⟩, fun h1 h2 => absurd ⟨h1, h2⟩ hi⟩
  choose enc hE using hE
  have hL : ∀ i j, ∃ m : LogMsg, i < S.n → j < S.n →
      NewKnowExponent e.Hb Ed.curve proofParameter (context ssidConst i) (S.rnd i).k (S.rnd i).rho (K i) (H.N i)
        (H.pn j, H.ps j, H.pt j) (Ed.lawful.pt ((S.rnd i).k • Ed.B)) ⟨Ed.curve.Gx, Ed.curve.Gy⟩ (S.draws i j) = .ok m ∧
      m.verify e.Hb Ed.curve proofParameter (context ssidConst i) (K i) (H.N i) (H.pn j, H.ps j, H.pt j)
        (Ed.lawful.pt ((S.rnd i).k • Ed.B)) ⟨Ed.curve.Gx, Ed.curve.Gy⟩ = .ok () ∧
      logUnmarshal (logMarshal m) = some m ∧ (logMarshal m).length < 2 ^ 60 := by
    intro i j
    by_cases hi : i < S.n ∧ j < S.n
    · obtain ⟨m, hm⟩ := H.log i j hi.1 hi.2 _ (hK i hi.1).1
      exact ⟨m, fun _ _ => hm⟩
    · exact ⟨⟨[], [], [], [], [], [], [], [], []⟩, fun h1 h2 => absurd ⟨h1, h2⟩ hi⟩
  choose log hL using hL
  have getmap : ∀ {α : Type} (f : Nat → α) (j : Nat), j < S.n → ((List.range S.n).map fun j => some (f j)).getD j none = some (f j) := by
    intro α f j hj
    rw [List.getD_eq_getElem?_getD]; simp [hj]
  refine ⟨{
    ids := H.ids
    keys := H.keys
    mOf := fun _ => (beNat H.msg : Int)
    x := H.x
    AOf := fun _ => ((List.range H.total).map H.x).sum • Ed.B
    N := fun i => H.N i
    ped := fun j => (H.pn j, H.ps j, H.pt j)
    K := K
    enc := enc
    log := log
    keyInj := H.keyInj
    lids := H.lids
    create := H.create
    priv := fun i _ => rfl
    xr := ?_
    pubs := fun i hi => sumPub_shares H.x (by omega)
    paillier := fun i j _ hj => getmap _ j hj
    peds := fun i j _ hj => getmap _ j hj
    kr := fun i hi => ⟨(H.nonce i hi).1, (H.nonce i hi).2.1, (H.nonce i hi).2.2.1⟩
    cipher := fun i hi => (hK i hi).1
    Kpos := fun i hi => (hK i hi).2.1
    encNew := fun i j hi hj => (hE i j hi hj).1
    encVer := fun i j hi hj => (hE i j hi hj).2.1
    encRt := fun i j hi hj => (hE i j hi hj).2.2.1
    logNew := fun i j hi hj => (hL i j hi hj).1
    logVer := fun i j hi hj => (hL i j hi hj).2.1
    logRt := fun i j hi hj => (hL i j hi hj).2.2.1
    zs := H.zs
    encLen := fun i j hi hj => lt_trans (hE i j hi hj).2.2.2 (by norm_num)
    logLen := fun i j hi hj => (hL i j hi hj).2.2.2
    KLen := ?_
    json := H.json }, rfl, rfl, rfl, rfl, rfl, rfl, rfl⟩
  · intro i hi
    exact ⟨by unfold Signers.x; omega, lt_trans (H.x_lt i (by omega)) (by decide +kernel)⟩
  · intro i hi
    obtain ⟨b, -, -, hs⟩ := H.refresh i hi
    have hN : H.N i < 256 ^ 256 := by
      rw [(hs i hi).1]
      refine lt_of_lt_of_le (beNat_lt _) (Nat.pow_le_pow_right (by norm_num) ?_)
      simp
    have h2 : H.N i * H.N i < 256 ^ 512 := by
      calc H.N i * H.N i < 256 ^ 256 * 256 ^ 256 := Nat.mul_lt_mul'' hN hN
        _ = 256 ^ 512 := by rw [← pow_add]
    have h3 := (hK i hi).2.2
    have h4 := (hK i hi).2.1
    have : (K i).natAbs < 256 ^ 512 := by omega
    have hl : (intBytes (K i)).length ≤ 512 := natBE_length_le _ 512 this
    exact lt_of_le_of_lt hl (by norm_num)

theorem Signers.facts (H : Signers e S) : ∃ F : GFacts e S, F.ids = H.ids ∧ F.keys = H.keys ∧
    F.mOf = (fun _ => (beNat H.msg : Int)) ∧ F.x = H.x ∧
    F.AOf = fun _ => ((List.range H.total).map H.x).sum • Ed.B := by
  obtain ⟨F, f1, f2, f3, f4, f5, -⟩ := H.facts_full
  exact ⟨F, f1, f2, f3, f4, f5⟩

namespace Honest
variable (H : Honest e S)

/-- An honest session is one of honest signers, all of them. -/
def signers : Signers e S :=
  { H with
    total := S.n
    fits := le_rfl
    priv := fun i hi => (H.priv i hi).1
    share := fun i hi => (H.priv i hi).2 }

/-- derived share of party `i` -/
def x (i : Nat) : Int := beNat (H.child i)

/-- the keys a created party holds -/
noncomputable def keys (i : Nat) : Keygen.SaveData :=
  { H.d i with
    privXi := some (H.x i)
    pubXj := (List.range S.n).map fun j => some (Ed.lawful.pt (H.x j • Ed.B))
    paillierPKs := (List.range S.n).map fun j => some (H.N j : Int)
    ringPedersenPKs := (List.range S.n).map fun j => some ((H.pn j : Int), (H.ps j : Int), (H.pt j : Int)) }

theorem lids : H.ids.length = S.n := H.signers.lids

theorem x_lt (i : Nat) (hi : i < S.n) : H.x i < Ed.curve.N := H.signers.x_lt i hi

end Honest

/-- An honest session has everything the invariant needs. -/
theorem Honest.facts (H : Honest e S) : ∃ F : Facts e S, F.ids = H.ids ∧ F.keys = H.keys ∧
    F.m = (beNat H.msg : Int) ∧ F.x = H.x := by
  obtain ⟨F, f1, f2, f3, f4, f5⟩ := H.signers.facts
  exact ⟨⟨F, fun i _ => by rw [f3, f5]; exact ⟨rfl, rfl⟩, by rw [f5, f4]; rfl⟩, f1, f2, congrFun f3 0, f4⟩

end Tss.Onsign
