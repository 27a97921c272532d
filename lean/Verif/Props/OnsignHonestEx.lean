import Verif.Props.OnsignHonest
/-! C55: a concrete honest session (toy hashes, small moduli, edwards25519), so the hypotheses of the theorems about
honest signing can be met. -/
namespace Tss.Onsign
open Tss Text Wire RangeProofs Alice

/-! ### the proofs of the toy session are short and their challenge is 2^246 -/

theorem toy_challenge (salt m : Bytes) : RandomAbsoluteRangeIntBySeed (hb 129) salt m Ed.curve.N = 2 ^ 246 := by
  have h1 : bitLen Ed.curve.N = 253 := by decide +kernel
  unfold RandomAbsoluteRangeIntBySeed ExtnedHashOuput
  rw [h1]
  have h2 : (List.range ((253 + 1 + 255) / 256)).flatMap (extBlock (hb 129) salt m) = 129 :: List.replicate 31 0 := rfl
  simp only [h2]
  decide +kernel

theorem toy_getE (msgs : List Bytes) (salts : Nat → Bytes) : GetE (hb 129) Ed.curve.N msgs salts = .ok (2 ^ 246, salts 99) := by
  unfold GetE getELoop
  simp only [toy_challenge]
  rw [if_pos (by decide +kernel)]

theorem decAux_length (f : Nat) : ∀ n k, n < 10 ^ (k + 1) → (decAux f n).length ≤ k + 1 := by
  induction f with
  | zero => intro n k _; simp [decAux]
  | succ f ih =>
    intro n k h
    unfold decAux
    split
    · simp
    · next hn =>
      cases k with
      | zero => simp at h; omega
      | succ k =>
        have := ih (n / 10) k (by rw [pow_succ] at h; omega)
        simp; omega

theorem itoa_length {n k : Nat} (h : n < 10 ^ (k + 1)) : (itoa n).length ≤ k + 1 := decAux_length n n k h

theorem bigString_length {z : Int} {k : Nat} (h : z.natAbs < 10 ^ (k + 1)) : (bigString z).length ≤ k + 2 := by
  have := itoa_length h
  unfold bigString
  split
  · simp; exact this
  · exact this.trans (by omega)

theorem intBytes_short {z : Int} {k : Nat} (h : z.natAbs < 256 ^ k) : (intBytes z).length ≤ k := natBE_length_le _ _ h

theorem encField_length_le (k : Nat) (b : Bytes) : (encField k b).length ≤ 20 + b.length := by
  unfold encField
  split
  · simp
  · exact encFieldRep_length_le k b

theorem mod_short {a m : Int} (h0 : 0 < m) (h : m ≤ 256 ^ 32) : (intBytes (a % m)).length ≤ 32 := by
  have h1 := Int.emod_nonneg a h0.ne'
  have h2 := Int.emod_lt_of_pos a h0
  apply intBytes_short
  have : ((256 ^ 32 : Nat) : Int) = 256 ^ 32 := by norm_num
  omega

theorem commit_short {ped : Ped} {a b v : Int} (h0 : 0 < ped.1) (h : ped.1 ≤ 256 ^ 32) (hc : commit ped a b = some v) :
    (intBytes v).length ≤ 32 := by
  unfold commit at hc
  split at hc
  · rw [← Option.some.inj hc]; exact mod_short h0 h
  · cases hc

theorem enc0_short {n a r v : Int} (h0 : 0 < n * n) (h : n * n ≤ 256 ^ 32) (hc : enc0 n a r = some v) :
    (intBytes v).length ≤ 32 := by
  unfold enc0 at hc
  split at hc
  · rw [← Option.some.inj hc]; exact mod_short h0 h
  · cases hc

theorem mulExp_short {A K e m v : Int} (h0 : 0 < m) (h : m ≤ 256 ^ 32) (hc : mulExp A K e m = some v) :
    (intBytes v).length ≤ 32 := by
  unfold mulExp at hc
  split at hc
  · rw [← Option.some.inj hc]; exact mod_short h0 h
  · cases hc

/-- toy draws -/
def toyDraws : Draws := ⟨100, 5, 2, 7, fun _ => [1, 2]⟩

theorem toy_small {k : Int} (h0 : 0 ≤ k) (h : k < 15) : (2 ^ 246 * k + toyDraws.alpha).natAbs < 10 ^ (99 + 1) ∧
    (toyDraws.alpha + 2 ^ 246 * k).natAbs < 10 ^ (99 + 1) := by
  have ha : toyDraws.alpha = 100 := rfl
  rw [ha]
  have h1 : (0 : Int) ≤ 2 ^ 246 * k := by positivity
  have h2 : (2 : Int) ^ 246 * k ≤ 2 ^ 246 * 14 := by
    apply mul_le_mul_of_nonneg_left (by omega) (by positivity)
  have h3 : (2 : Int) ^ 246 * 14 + 100 < ((10 ^ (99 + 1) : Nat) : Int) := by norm_num
  generalize (2 : Int) ^ 246 * k = t at *
  generalize (10 ^ (99 + 1) : Nat) = u at *
  constructor <;> omega

theorem toy_enc (ssid : Bytes) (K k : Int) (h0 : 0 ≤ k) (h15 : k < 15) :
    let o := NewEncryptRangeMessage (hb 129) proofParameter ssid K 15 k 2 (35, 4, 9) toyDraws
    o ≠ .err .exceedMaxRetry ∧ ∀ m, o = .ok m → (encMarshal m).length < 2 ^ 60 := by
  intro o
  have ho : o = NewEncryptRangeMessage (hb 129) proofParameter ssid K 15 k 2 (35, 4, 9) toyDraws := rfl
  unfold NewEncryptRangeMessage at ho
  rw [if_neg (by decide)] at ho
  split at ho
  · next S A C hS hA hC =>
    rw [show proofParameter.curveN = Ed.curve.N from rfl, toy_getE] at ho
    simp only at ho
    split at ho
    · next z2 hz =>
      refine ⟨by rw [ho]; simp, ?_⟩
      intro m hm
      rw [ho] at hm
      rw [← Res.ok.inj hm]
      have l1 := commit_short (by norm_num) (by norm_num) hS
      have l2 := enc0_short (by norm_num) (by norm_num) hA
      have l3 := commit_short (by norm_num) (by norm_num) hC
      have l4 := mulExp_short (by norm_num) (by norm_num) hz
      have l5 : (bigString (2 ^ 246 * k + toyDraws.alpha)).length ≤ 101 := bigString_length (k := 99) (toy_small h0 h15).1
      have l6 : (bigString (2 ^ 246 * toyDraws.mu + toyDraws.gamma)).length ≤ 101 := bigString_length (k := 99) (by decide +kernel)
      unfold encMarshal
      simp only [List.length_append]
      generalize bigString (2 ^ 246 * k + toyDraws.alpha) = b5 at *
      generalize bigString (2 ^ 246 * toyDraws.mu + toyDraws.gamma) = b6 at *
      have g1 := encField_length_le 1 (toyDraws.salts 99)
      have g2 := encField_length_le 2 (intBytes S)
      have g3 := encField_length_le 3 (intBytes A)
      have g4 := encField_length_le 4 (intBytes C)
      have g5 := encField_length_le 5 b5
      have g6 := encField_length_le 6 (intBytes z2)
      have g7 := encField_length_le 7 b6
      have g0 : (toyDraws.salts 99).length = 2 := rfl
      have : (2 : Nat) ^ 60 > 1000 := by norm_num
      omega
    · refine ⟨by rw [ho]; simp, ?_⟩
      intro m hm; rw [ho] at hm; cases hm
  · refine ⟨by rw [ho]; simp, ?_⟩
    intro m hm; rw [ho] at hm; cases hm

theorem point_short (g : Ed.Point) : (intBytes (Ed.lawful.pt g).x).length ≤ 32 ∧ (intBytes (Ed.lawful.pt g).y).length ≤ 32 := by
  obtain ⟨x1, x2, x3, x4⟩ := coords_small g
  exact ⟨Keygen.intBytes_len x1 x2, Keygen.intBytes_len x3 x4⟩

theorem log_size (m : LogMsg) (h1 : m.salt.length ≤ 100) (h2 : m.S.length ≤ 100) (h3 : m.A.length ≤ 100) (h4 : m.Yx.length ≤ 100)
    (h5 : m.Yy.length ≤ 100) (h6 : m.D.length ≤ 100) (h7 : m.z1.length ≤ 101) (h8 : m.z2.length ≤ 100)
    (h9 : m.z3.length ≤ 101) : (logMarshal m).length < 2 ^ 60 := by
  unfold logMarshal
  simp only [List.length_append]
  have g1 := encField_length_le 1 m.salt
  have g2 := encField_length_le 2 m.S
  have g3 := encField_length_le 3 m.A
  have g4 := encField_length_le 4 m.Yx
  have g5 := encField_length_le 5 m.Yy
  have g6 := encField_length_le 6 m.D
  have g7 := encField_length_le 7 m.z1
  have g8 := encField_length_le 8 m.z2
  have g9 := encField_length_le 9 m.z3
  have : (2 : Nat) ^ 60 > 2000 := by norm_num
  omega

theorem mult_pt (G : ECPoint) (hG : Ed.curve.On G) (a : Int) : ∃ g, ECPoint.scalarMult Ed.curve G a = some (Ed.lawful.pt g) :=
  ⟨_, Ed.lawful.scalarMult_pt hG a⟩

theorem toy_log (ssid : Bytes) (K k : Int) (h0 : 0 ≤ k) (h15 : k < 15) (X G : ECPoint) (hG : Ed.curve.On G) :
    let o := NewKnowExponent (hb 129) Ed.curve proofParameter ssid k 2 K 15 (35, 4, 9) X G toyDraws
    o ≠ .err .exceedMaxRetry ∧ ∀ m, o = .ok m → (logMarshal m).length < 2 ^ 60 := by
  intro o
  have ho : o = NewKnowExponent (hb 129) Ed.curve proofParameter ssid k 2 K 15 (35, 4, 9) X G toyDraws := rfl
  unfold NewKnowExponent at ho
  rw [if_neg (by decide)] at ho
  obtain ⟨g, hY⟩ := mult_pt G hG toyDraws.alpha
  rw [hY] at ho
  obtain ⟨y1, y2⟩ := point_short g
  generalize Ed.lawful.pt g = Y at ho y1 y2
  split at ho
  · next S A Y' D hS hA hYe hD =>
    have e := Option.some.inj hYe
    subst e
    rw [show proofParameter.curveN = Ed.curve.N from rfl, toy_getE] at ho
    simp only at ho
    split at ho
    · next z2 hz =>
      refine ⟨by rw [ho]; simp, ?_⟩
      intro m hm
      rw [ho] at hm
      rw [← Res.ok.inj hm]
      have l1 := commit_short (by norm_num) (by norm_num) hS
      have l2 := enc0_short (by norm_num) (by norm_num) hA
      have l3 := commit_short (by norm_num) (by norm_num) hD
      have l4 := mulExp_short (by norm_num) (by norm_num) hz
      have l5 : (bigString (toyDraws.alpha + 2 ^ 246 * k)).length ≤ 101 := bigString_length (k := 99) (toy_small h0 h15).2
      have l6 : (bigString (toyDraws.gamma + 2 ^ 246 * toyDraws.mu)).length ≤ 101 := bigString_length (k := 99) (by decide +kernel)
      exact log_size _ (by simp [toyDraws]) (l1.trans (by norm_num)) (l2.trans (by norm_num)) (y1.trans (by norm_num))
        (y2.trans (by norm_num)) (l3.trans (by norm_num)) l5 (l4.trans (by norm_num)) l6
    · refine ⟨by rw [ho]; simp, ?_⟩
      intro m hm; rw [ho] at hm; cases hm
  · refine ⟨by rw [ho]; simp, ?_⟩
    intro m hm; rw [ho] at hm; cases hm

/-! ### the derivation succeeds -/

theorem loop_gen (E : Ckd.Env) (On : ECPoint → Prop)
    (hstep : ∀ (i : Nat), i < 2 ^ 31 → ∀ (pk : Ckd.KeyD), On pk.pub → On pk.deduce → pk.depth ≠ 255 →
      ∃ r : Int × Ckd.KeyD, Ckd.deriveChildKeyD E i false pk = .ok r ∧ On r.2.pub ∧ On r.2.deduce ∧ r.2.depth = pk.depth + 1 ∧
        r.2.priv.length ≤ 32) (parts : List (Nat × Bytes)) : ∀ (pk : Ckd.KeyD),
    (∀ q ∈ parts, q.1 < 2 ^ 31 ∧ Ckd.parsePart q.2 = .ok (q.1, false)) →
    On pk.pub → On pk.deduce → pk.depth + parts.length < 255 → pk.priv.length ≤ 32 →
    ∃ k, Ckd.derivePrivLoopD E pk (parts.map (·.2)) = .ok k ∧ k.priv.length ≤ 32 := by
  induction parts with
  | nil => exact fun pk _ _ _ _ hl => ⟨pk, rfl, hl⟩
  | cons q t ih =>
    intro pk h h1 h2 h3 _
    obtain ⟨q1, q2⟩ := h q (by simp)
    simp only [List.length_cons] at h3
    obtain ⟨⟨i1, k1⟩, e1, o1, d1, n1, l1⟩ := hstep q.1 q1 pk h1 h2 (by omega)
    obtain ⟨k, e2, l2⟩ := ih k1 (fun x hx => h x (by simp [hx])) o1 d1 (by simp only at n1; omega) l1
    refine ⟨k, ?_, l2⟩
    simp only [List.map_cons]
    unfold Ckd.derivePrivLoopD
    rw [q2]
    simp only
    rw [e1]
    exact e2

theorem toy_step (i : Nat) (hi : i < 2 ^ 31) (pk : Ckd.KeyD) (hp : Ed.curve.On pk.pub) (hd : Ed.curve.On pk.deduce)
    (hn : pk.depth ≠ 255) : ∃ r : Int × Ckd.KeyD, Ckd.deriveChildKeyD Ckd.toyEnv i false pk = .ok r ∧ Ed.curve.On r.2.pub ∧
      Ed.curve.On r.2.deduce ∧ r.2.depth = pk.depth + 1 ∧ r.2.priv.length ≤ 32 := Ckd.toyEnv_step i hi false pk hp hd hn

theorem toy_loop (parts : List (Nat × Bytes)) (pk : Ckd.KeyD)
    (h : ∀ q ∈ parts, q.1 < 2 ^ 31 ∧ Ckd.parsePart q.2 = .ok (q.1, false))
    (h1 : Ed.curve.On pk.pub) (h2 : Ed.curve.On pk.deduce) (h3 : pk.depth + parts.length < 255) (h4 : pk.priv.length ≤ 32) :
    ∃ k, Ckd.derivePrivLoopD Ckd.toyEnv pk (parts.map (·.2)) = .ok k ∧ k.priv.length ≤ 32 :=
  loop_gen Ckd.toyEnv (fun p => Ed.curve.On p) toy_step parts pk h h1 h2 h3 h4

/-- the wallet path of the toy session -/
def toyPath : Bytes := ascii "44/7/0/1/2"

theorem derive_gen (E : Ckd.Env) (On : ECPoint → Prop)
    (hloop : ∀ (parts : List (Nat × Bytes)) (pk : Ckd.KeyD), (∀ q ∈ parts, q.1 < 2 ^ 31 ∧ Ckd.parsePart q.2 = .ok (q.1, false)) →
      On pk.pub → On pk.deduce → pk.depth + parts.length < 255 → pk.priv.length ≤ 32 →
      ∃ k, Ckd.derivePrivLoopD E pk (parts.map (·.2)) = .ok k ∧ k.priv.length ≤ 32)
    (x : Int) (h0 : 0 ≤ x) (h1 : x < 2 ^ 256) (pub deduce : ECPoint) (hp : On pub) (hd : On deduce)
    (code : Bytes) : ∃ q : Bytes × Bytes, Ckd.deriveEddsaChildPrivKey E x pub deduce code toyPath = .ok q := by
  have fb : fillBytes 32 x = some (beFixed 32 x.natAbs) := by
    unfold fillBytes; rw [if_pos (by norm_num; omega)]
  have parts : Ckd.pathParts 0 toyPath = some ([(44, ascii "44"), (7, ascii "7"), (0, ascii "0"), (1, ascii "1"), (2, ascii "2")].map
    (·.2)) := by decide +kernel
  obtain ⟨k, e1, l1⟩ := hloop [(44, ascii "44"), (7, ascii "7"), (0, ascii "0"), (1, ascii "1"), (2, ascii "2")]
    (Ckd.newExtendKeyD E (beFixed 32 x.natAbs) pub deduce 0 0 code) (by decide +kernel) hp hd
    (by simp [Ckd.newExtendKeyD]) (by simp [Ckd.newExtendKeyD])
  unfold Ckd.deriveEddsaChildPrivKey Ckd.derivePrivateKeyForPathD
  rw [fb]
  simp only
  rw [show (Ckd.newExtendKeyD E (beFixed 32 x.natAbs) pub deduce 0 0 code).depth = 0 from rfl, parts]
  simp only
  rw [e1]
  simp only
  have hl : (Ckd.padKey k.priv).length = 32 := by
    unfold Ckd.padKey
    split
    · simp; omega
    · omega
  rw [if_neg (by simp [hl])]
  exact ⟨_, rfl⟩

theorem toy_derive (x : Int) (h0 : 0 ≤ x) (h1 : x < 2 ^ 256) (pub deduce : ECPoint) (hp : Ed.curve.On pub) (hd : Ed.curve.On deduce)
    (code : Bytes) : ∃ q : Bytes × Bytes, Ckd.deriveEddsaChildPrivKey Ckd.toyEnv x pub deduce code toyPath = .ok q :=
  derive_gen Ckd.toyEnv (fun p => Ed.curve.On p) toy_loop x h0 h1 pub deduce hp hd code

/-! ### the session -/

/-- the 673 bytes of one party in the refresh payload: Paillier modulus 15, ring-Pedersen parameters 35, 4, 9 -/
def toyBlock : Bytes :=
  List.replicate 33 1 ++ (List.replicate 255 0 ++ [15]) ++ (List.replicate 127 0 ++ [35]) ++ (List.replicate 127 0 ++ [4]) ++
    (List.replicate 127 0 ++ [9])

/-- refresh payload of two parties -/
def toyPayload : Bytes := List.replicate 1376 2 ++ toyBlock ++ toyBlock

/-- key-generation shares 1 and 2 -/
def toyX0 (i : Nat) : Int := i + 1

/-- key-generation result of party `i` -/
noncomputable def toyData (i : Nat) : Keygen.SaveData where
  privXi := some (toyX0 i)
  shareID := none
  chainCodes := [some 7, some 9]
  ks := [some 5, some 17]
  pubXj := (List.range 2).map fun j => some (Ed.lawful.pt (toyX0 j • Ed.B))
  eddsaPub := some (Ed.lawful.pt ((3 : Int) • Ed.B))
  paillierPKs := []
  ringPedersenPKs := []

/-- the stored key-generation result of party `i` is the text of `i` bytes; any SHA-512 -/
noncomputable def toyEnvSha (sha512 : Bytes → Bytes) : Env where
  Hb := hb 129
  sha512 := sha512
  hash160 := id
  hmac512 _ _ := List.replicate 31 0 ++ [1] ++ List.replicate 32 1
  jsonDec b := some (toyData b.length)
  jsonSig sd := some sd.signature
  hexTail _ := []

/-- with a toy SHA-512 -/
noncomputable def toyEnvS : Env := toyEnvSha fun b => List.replicate 63 3 ++ [UInt8.ofNat b.length]

/-- two parties with nonces `k` sign the message 00 ff 07 -/
def toySessionK (k : Nat → Int) : Session where
  n := 2
  key i := [UInt8.ofNat i]
  args i := {
    partyIndex := i
    partyCount := 2
    pIDs := [ascii "17", ascii "5"]
    msg := ascii "00ff07"
    keyData := b64Encode (List.replicate i 0)
    refresh := hexEncode toyPayload
    path := toyPath }
  rnd i := ⟨k i, 2, fun _ => toyDraws⟩
  draws _ _ := toyDraws
  zs _ _ := 1

/-- with nonces 3 -/
def toySession : Session := toySessionK fun _ => 3

theorem toy_room {k : Int} (h0 : 0 ≤ k) (h : k < 15) :
    |toyDraws.alpha| + Ed.curve.N * k ≤ 2 * 2 ^ proofParameter.lAddEpsilon := by
  have h1 : |toyDraws.alpha| + Ed.curve.N * 14 ≤ 2 * 2 ^ proofParameter.lAddEpsilon := by decide +kernel
  have h2 : (0 : Int) < Ed.curve.N := by decide +kernel
  generalize (2 * 2 ^ proofParameter.lAddEpsilon : Int) = t at *
  have : Ed.curve.N * k ≤ Ed.curve.N * 14 := mul_le_mul_of_nonneg_left (by omega) h2.le
  omega

theorem toyHonestK (sha512 : Bytes → Bytes) (k : Nat → Int) (hk : ∀ i, 0 ≤ k i ∧ k i < 15) :
    Nonempty (Honest (toyEnvSha sha512) (toySessionK k)) := by
  have hx : ∀ i, ∃ q : Bytes × Bytes, i < 2 → Ckd.deriveEddsaChildPrivKey (toyEnvSha sha512).ckd (toyX0 i) (Ed.lawful.pt (toyX0 i • Ed.B))
      (Ed.lawful.pt ((3 : Int) • Ed.B)) (intBytes (if i = 0 then 7 else 9)) toyPath = .ok q := by
    intro i
    by_cases hi : i < 2
    · obtain ⟨q, hq⟩ := toy_derive (toyX0 i) (by unfold toyX0; omega) (by unfold toyX0; norm_num; omega)
        (Ed.lawful.pt (toyX0 i • Ed.B)) (Ed.lawful.pt ((3 : Int) • Ed.B)) (Ed.lawful.on_pt _) (Ed.lawful.on_pt _)
        (intBytes (if i = 0 then 7 else 9))
      exact ⟨q, fun _ => hq⟩
    · exact ⟨([], []), fun h => absurd h hi⟩
  choose q hq using hx
  have two : ∀ {P : Nat → Prop}, P 0 → P 1 → ∀ i, i < 2 → P i := by
    intro P h0 h1 i hi
    rcases (by omega : i = 0 ∨ i = 1) with rfl | rfl
    · exact h0
    · exact h1
  refine ⟨{
    pIDs := [ascii "17", ascii "5"]
    ids := PartyID.SortPartyIDs ((Keygen.buildIds [ascii "17", ascii "5"] 0 2).getD []) none
    d := toyData
    kv := fun i => if i = 0 then 5 else 17
    code := fun i => if i = 0 then 7 else 9
    x0 := toyX0
    grp := Ed.lawful.pt ((3 : Int) • Ed.B)
    path := toyPath
    child := fun i => (q i).1
    kb := fun i => (q i).2
    msg := [0, 255, 7]
    N := fun _ => 15
    pn := fun _ => 35
    ps := fun _ => 4
    pt := fun _ => 9
    keyInj := ?_
    count := fun i _ => ⟨rfl, rfl, rfl, rfl⟩
    idsOk := ?_
    idKey := ?_
    idInj := ?_
    keyData := ?_
    ks := fun i _ => rfl
    priv := ?_
    pub := fun i _ => rfl
    codes := fun i _ => rfl
    group := fun i _ => rfl
    groupOn := Ed.lawful.on_pt _
    pathLen := by decide +kernel
    soft := by decide +kernel
    derive := fun i hi => hq i hi
    refresh := ?_
    message := fun i _ => by show hexDecode (ascii "00ff07") = _; decide +kernel
    moduli := fun i _ => by decide
    nonce := fun i _ => ⟨(hk i).1, by show k i < 15; exact (hk i).2, by
      show k i < 2 ^ 256; exact lt_trans (hk i).2 (by norm_num), by show Int.gcd 2 15 = 1; decide⟩
    encUnit := fun i j _ _ => ⟨by show Int.gcd 2 15 = 1; decide, toy_room (hk i).1 (hk i).2⟩
    logUnit := fun i j _ _ => ⟨by show Int.gcd 2 15 = 1; decide, toy_room (hk i).1 (hk i).2⟩
    encFresh := fun i j K _ _ _ => toy_enc _ K _ (hk i).1 (hk i).2
    logFresh := fun i j K _ _ _ => toy_log _ K _ (hk i).1 (hk i).2 _ _ Ed.lawful.base_onCurve
    zs := fun i j _ _ => by show Ed.fe 1 % Ed.P ≠ 0; decide +kernel
    json := fun sd => rfl }⟩
  · intro i j hi hj h
    simp only [toySessionK, List.cons.injEq, and_true] at h hi hj
    have h2 := congrArg UInt8.toNat h
    simp only [UInt8.toNat_ofNat'] at h2
    omega
  · refine ⟨(Keygen.buildIds [ascii "17", ascii "5"] 0 2).getD [], ?_, rfl⟩
    show Keygen.buildIds [ascii "17", ascii "5"] 0 2 = _
    decide +kernel
  · have hl : (PartyID.SortPartyIDs ((Keygen.buildIds [ascii "17", ascii "5"] 0 2).getD []) none).map (·.key) =
        [some (intBytes 5), some (intBytes 17)] := by decide +kernel
    intro j id hid
    have h1 : ((PartyID.SortPartyIDs ((Keygen.buildIds [ascii "17", ascii "5"] 0 2).getD []) none).map (·.key))[j]? = some id.key := by
      rw [List.getElem?_map, hid]; rfl
    rw [hl] at h1
    match j, h1 with
    | 0, h1 => exact (by simpa using h1.symm)
    | 1, h1 => exact (by simpa using h1.symm)
    | j + 2, h1 => simp at h1
  · intro i j hi hj h
    have hi' : i < 2 := hi
    have hj' : j < 2 := hj
    have hne : intBytes 5 ≠ intBytes 17 := by decide +kernel
    rcases (by omega : i = 0 ∨ i = 1) with rfl | rfl <;> rcases (by omega : j = 0 ∨ j = 1) with rfl | rfl
    · rfl
    · exact absurd h hne
    · exact absurd h.symm hne
    · rfl
  · intro i hi
    exact ⟨List.replicate i 0, b64_round_trip _, by simp [toyEnvSha]⟩
  · intro i hi
    have hi' : i < 2 := hi
    exact ⟨rfl, by unfold toyX0; omega, by unfold toyX0; norm_num; omega⟩
  · intro i hi
    refine ⟨toyPayload, hex_round_trip _, by show 1376 + 673 * 2 ≤ _; decide +kernel, ?_⟩
    exact two (by decide +kernel) (by decide +kernel)

/-- C55: the hypotheses about honest signing can be met. -/
theorem toyHonest : Nonempty (Honest toyEnvS toySession) := toyHonestK _ _ fun _ => by decide

/-- so the two toy parties can sign: both finish with the same 64-byte signature of ff 07, which verifies under the group key -/
example : ∃ s sig A, Run toyEnvS toySession s ∧ spec.Verifies toyEnvS.sha512 (Ed.encode A) [255, 7] sig ∧
    ∀ i, i < 2 → s.final i = some sig ∧ ∃ p, s.reg [UInt8.ofNat i] = some p ∧ p.keys.eddsaPub = some (Ed.lawful.pt A) := by
  obtain ⟨H⟩ := toyHonest
  obtain ⟨s, h1, h2⟩ := C55_can_finish H _ (Run.init fun _ => none)
  replace h1 := h1.run (Run.init fun _ => none)
  obtain ⟨sd, a1, a2, -⟩ := C55_agreement H
  have hm : H.msg.dropWhile (· = 0) = [255, 7] := by
    have := H.message 0 (by decide)
    rw [show hexDecode (toySession.args 0).msg = some [0, 255, 7] by decide +kernel] at this
    rw [← Option.some.inj this]; decide
  rw [hm] at a2
  refine ⟨s, sd.signature, _, h1, a2, fun i hi => ?_⟩
  obtain ⟨p, out, b1, b2, b3, b4⟩ := a1 s h1 i hi (h2 i hi)
  refine ⟨?_, p, b1, b4⟩
  rw [b2, ← b3]; rfl

end Tss.Onsign
