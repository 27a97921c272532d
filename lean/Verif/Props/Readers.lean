import Verif.Model.Readers
import Verif.Props.Messages
import Verif.Props.OnsignSetup
import Verif.Props.ModProofComplete
/-
C110: what the reading functions of a message give back.
-/
namespace Tss.Readers
open Tss Wire Messages Tss.RangeProofs

namespace spec

/-- A point that a party can send: on the curve, with coordinates that are not negative. -/
def Sendable (c : Curve) (P : ECPoint) : Prop := c.isOnCurve P.x P.y = true ∧ 0 ≤ P.x ∧ 0 ≤ P.y

/-- The content that reaches a receiver over the wire. -/
def arrives (m : Message) (c : Content) : Prop :=
  ∀ (p : PartyID) (bc : Bool), ∃ m', receive m.wire (some p) bc = .ok m' ∧ m'.content = c ∧ m'.routing.from_ = some p

end spec
open spec

theorem arrives_of {meta_ : Routing} {c : Content} {m : Message} (h : newMessage meta_ c = some m) (hs : Small m.content) :
    arrives m c := by
  have hc : m.content = c := by
    unfold newMessage at h
    split at h
    · cases h
    · cases h; rfl
  rw [hc] at hs
  intro p bc
  exact ⟨_, (C93_delivered h hs p bc).1, rfl, rfl⟩

theorem new_back {c : Curve} {P : ECPoint} (h : Sendable c P) :
    ECPoint.new c (beNat (intBytes P.x)) (beNat (intBytes P.y)) = some P := by
  obtain ⟨h1, h2, h3⟩ := h
  rw [beNat_intBytes, beNat_intBytes]
  have e2 : ((P.x.natAbs : ℕ) : ℤ) = P.x := Int.natAbs_of_nonneg h2
  have e3 : ((P.y.natAbs : ℕ) : ℤ) = P.y := Int.natAbs_of_nonneg h3
  rw [e2, e3]
  unfold ECPoint.new
  rw [if_pos h1]

theorem num_back {z : ℤ} (h : 0 ≤ z) : ((beNat (intBytes z) : ℕ) : ℤ) = z := by
  rw [beNat_intBytes]; exact Int.natAbs_of_nonneg h

theorem new_on {c : Curve} {x y : ℤ} {P : ECPoint} (h : ECPoint.new c x y = some P) :
    c.isOnCurve P.x P.y = true := by
  unfold ECPoint.new at h
  split at h
  · next hh => cases h; exact hh
  · cases h

/-- C110. The second key generation message: the receiver reads the two points and the three byte strings that were put in. -/
theorem C110_keygen2 {c : Curve} {frm : Option PartyID} {ssid srid u : Bytes} {X A : ECPoint} {m : Message}
    (h : newKGRound2 frm ssid srid X A u = some m) (hX : Sendable c X) (hA : Sendable c A) (hs : Small m.content) :
    ∃ cont, arrives m cont ∧ pubXj c cont = some (some X) ∧ payload c cont = some (some ⟨A, ssid, srid, u⟩) := by
  refine ⟨_, arrives_of h hs, ?_, ?_⟩
  · simp only [pubXj, new_back hX]
  · simp only [payload, new_back hA]

/-- C110. The third key generation message: the response is read back. -/
theorem C110_keygen3 {frm : Option PartyID} {z : ℤ} {m : Message} (h : newKGRound3 frm (intBytes z) = some m) (hz : 0 ≤ z)
    (hs : Small m.content) : ∃ cont, arrives m cont ∧ schProof cont = some z :=
  ⟨_, arrives_of h hs, by simp only [schProof, num_back hz]⟩

/-- C110. The first signing messages: the ciphertext, and the range proof that a signer created. -/
theorem C110_sign1 {frm : Option PartyID} {k : ℤ} {m : Message} (h : newSignRound1a frm k = some m) (hk : 0 ≤ k)
    (hs : Small m.content) : ∃ cont, arrives m cont ∧ bigK cont = some k :=
  ⟨_, arrives_of h hs, by simp only [bigK, num_back hk]⟩

/-- C110. A created encryption proof is read back as it was. -/
theorem C110_sign1_proof {to_ : PartyID} {frm : Option PartyID} {Hb : Bytes → Bytes} {cfg : ProofConfig} {ssid : Bytes}
    {K n k rho : Int} {ped : Ped} {d : Draws} {p : EncMsg} {m : Message}
    (hp : NewEncryptRangeMessage Hb cfg ssid K n k rho ped d = .ok p)
    (h : newSignRound1b to_ frm (Onsign.encMarshal p) = some m) (hs : Small m.content) :
    ∃ cont, arrives m cont ∧ encProof cont = some (some p) := by
  have hc : m.content = .sg1b (Onsign.encMarshal p) := by
    unfold newSignRound1b newMessage at h
    split at h
    · cases h
    · cases h; rfl
  have hl : (Onsign.encMarshal p).length < 2 ^ 64 := by
    rw [hc] at hs
    exact hs.1 _ (by simp [Content.parts])
  obtain ⟨t1, t3⟩ := Onsign.enc_new_text hp
  refine ⟨_, arrives_of h hs, ?_⟩
  simp only [encProof, Onsign.enc_roundtrip p t1 t3 hl]

/-- C110. The second signing message: the nonce point and the proof that a signer created. -/
theorem C110_sign2 {c : Curve} {to_ : PartyID} {frm : Option PartyID} {R : ECPoint} {Hb : Bytes → Bytes} {cfg : ProofConfig}
    {ssid : Bytes} {x rho C n : Int} {ped : Ped} {X G : ECPoint} {d : Draws} {p : LogMsg} {m : Message}
    (hp : NewKnowExponent Hb c cfg ssid x rho C n ped X G d = .ok p)
    (h : newSignRound2 to_ frm R (Onsign.logMarshal p) = some m) (hR : Sendable c R) (hs : Small m.content) :
    ∃ cont, arrives m cont ∧ pointR c cont = some (some R) ∧ logProof cont = some (some p) := by
  have hc : m.content = .sg2 (intBytes R.x) (intBytes R.y) (Onsign.logMarshal p) := by
    unfold newSignRound2 newMessage at h
    split at h
    · cases h
    · cases h; rfl
  have hl : (Onsign.logMarshal p).length < 2 ^ 64 := by
    rw [hc] at hs
    exact hs.1 _ (by simp [Content.parts])
  obtain ⟨t1, t3⟩ := Onsign.log_new_text hp
  refine ⟨_, arrives_of h hs, ?_, ?_⟩
  · simp only [pointR, new_back hR]
  · simp only [logProof, Onsign.log_roundtrip p t1 t3 hl]

/-- C110. The third signing message: the share of the signature. -/
theorem C110_sign3 {frm : Option PartyID} {s : ℤ} {m : Message} (h : newSignRound3 frm s = some m) (hs0 : 0 ≤ s)
    (hs : Small m.content) : ∃ cont, arrives m cont ∧ sigma cont = some s :=
  ⟨_, arrives_of h hs, by simp only [sigma, num_back hs0]⟩

/-- C110. Whatever bytes a message carries, a point that is read from it is on the curve. -/
theorem C110_on_curve (c : Curve) (cont : Content) :
    (∀ P, pubXj c cont = some (some P) → c.isOnCurve P.x P.y = true) ∧
      (∀ p, payload c cont = some (some p) → c.isOnCurve p.commitedA.x p.commitedA.y = true) ∧
      ∀ P, pointR c cont = some (some P) → c.isOnCurve P.x P.y = true := by
  refine ⟨fun P h => ?_, fun p h => ?_, fun P h => ?_⟩
  · cases cont <;> simp only [pubXj, Option.some.injEq, reduceCtorEq] at h
    exact new_on h
  · cases cont <;> simp only [payload, Option.some.injEq, reduceCtorEq] at h
    split at h
    · cases h
    · next A hA =>
      cases h
      exact new_on hA
  · cases cont <;> simp only [pointR, Option.some.injEq, reduceCtorEq] at h
    exact new_on h

/-- C110. Bytes that are not a protobuf message are refused as a proof, with an error. -/
theorem C110_refused {b : Bytes} (h : parseFields b = none) (rx ry sch : Bytes) (md : List Bytes) :
    encProof (.sg1b b) = some none ∧ logProof (.sg2 rx ry b) = some none ∧ prmProof (.kg3 sch md b) = some none := by
  refine ⟨?_, ?_, ?_⟩
  · simp only [encProof, Onsign.encUnmarshal, h]
  · simp only [logProof, Onsign.logUnmarshal, h]
  · simp only [prmProof, prmUnmarshal, h]

/-- a cut-off field is such a case -/
example : parseFields [10, 5, 1] = none := by decide +kernel

theorem rep_le {k : ℕ} {b : Bytes} {l : List Bytes} (hb : b ∈ l) : b.length ≤ (l.flatMap (encFieldRep k)).length := by
  have h1 : b.length ≤ (encFieldRep k b).length := by
    simp only [encFieldRep, List.length_append]; omega
  have h2 : (encFieldRep k b).length ≤ (l.flatMap (encFieldRep k)).length := by
    rw [List.length_flatMap]
    exact List.le_sum_of_mem (List.mem_map.mpr ⟨b, hb, rfl⟩)
  omega

theorem FieldsOk_rep {k : ℕ} {l : List Bytes} (h1 : 1 ≤ k) (h2 : k < 2 ^ 29) (h : ∀ b ∈ l, b.length < 2 ^ 64) :
    FieldsOk (l.map fun b => (k, b)) := by
  intro p hp
  obtain ⟨b, hb, rfl⟩ := List.mem_map.mp hp
  exact ⟨h1, h2, h b hb⟩

theorem getRepeated_rep_ne (k n : ℕ) (l : List Bytes) (h : n ≠ k) :
    getRepeated k ((l.map fun b => (n, b)).map fun p => (p.1, WVal.bytes p.2)) = [] := by
  induction l with
  | nil => rfl
  | cons a t ih =>
    simp only [List.map_cons, getRepeated, List.filterMap_cons, h, if_false]
    exact ih

/-- C110. A ring-Pedersen proof is read back as it was, so that it is checked as it was. -/
theorem C110_prm_proof (p : RingPed.Msg) (hl : (prmMarshal p).length < 2 ^ 64) (sch : Bytes) (md : List Bytes) :
    prmProof (.kg3 sch md (prmMarshal p)) = some (some p) := by
  simp only [prmProof, Option.some.injEq]
  have e : prmMarshal p = encFields ((p.Z.map fun b => (1, b)) ++ (p.A.map fun b => (2, b)) ++ sing 3 p.N ++ sing 4 p.S ++
      sing 5 p.T ++ sing 6 p.salt) := by
    simp only [encFields_append, encFields_map, ← encField_eq]; rfl
  have g3 := Onsign.encField_length_ge 3 p.N
  have g4 := Onsign.encField_length_ge 4 p.S
  have g5 := Onsign.encField_length_ge 5 p.T
  have g6 := Onsign.encField_length_ge 6 p.salt
  have gZ : ∀ b ∈ p.Z, b.length ≤ (p.Z.flatMap (encFieldRep 1)).length := fun b hb => rep_le hb
  have gA : ∀ b ∈ p.A, b.length ≤ (p.A.flatMap (encFieldRep 2)).length := fun b hb => rep_le hb
  unfold prmMarshal at hl
  simp only [List.length_append] at hl
  have ok : FieldsOk ((p.Z.map fun b => (1, b)) ++ (p.A.map fun b => (2, b)) ++ sing 3 p.N ++ sing 4 p.S ++
      sing 5 p.T ++ sing 6 p.salt) := by
    repeat' apply FieldsOk_append
    · exact FieldsOk_rep (by norm_num) (by norm_num) fun b hb => by have := gZ b hb; omega
    · exact FieldsOk_rep (by norm_num) (by norm_num) fun b hb => by have := gA b hb; omega
    all_goals exact FieldsOk_sing (by norm_num) (by norm_num) (by omega)
  unfold prmUnmarshal
  rw [e, parseFields_enc _ ok]
  simp only [List.map_append, getRepeated_append]
  have ne : ∀ k n (b : Bytes), n ≠ k → getRepeated k ((sing n b).map fun p => (p.1, WVal.bytes p.2)) = [] :=
    fun k n b h => getRepeated_sing_ne k n b h
  have op : ∀ k n (b : Bytes), getBytes.getBytesOpt k ((sing n b).map fun p => (p.1, WVal.bytes p.2)) =
      if n = k ∧ b ≠ [] then some b else none := fun k n b => getBytesOpt_sing k n b
  have rp : ∀ k n (l : List Bytes), n ≠ k →
      getBytes.getBytesOpt k ((l.map fun b => (n, b)).map fun p => (p.1, WVal.bytes p.2)) = none :=
    fun k n l h => getBytesOpt_rep_ne k n l h
  have req : ∀ k (l : List Bytes), getRepeated k ((l.map fun b => (k, b)).map fun p => (p.1, WVal.bytes p.2)) = l :=
    fun k l => getRepeated_rep k l
  have ite_b : ∀ b : Bytes, (if b = [] then none else some b).getD [] = b := by
    intro b; split <;> simp_all
  rw [ne 1 3 _ (by decide), ne 1 4 _ (by decide), ne 1 5 _ (by decide), ne 1 6 _ (by decide), ne 2 3 _ (by decide),
    ne 2 4 _ (by decide), ne 2 5 _ (by decide), ne 2 6 _ (by decide), req, req, getRepeated_rep_ne 1 2 _ (by decide),
    getRepeated_rep_ne 2 1 _ (by decide)]
  simp only [List.nil_append, List.append_nil, getBytes_eq, getBytesOpt_append, op]
  rw [rp 3 1 _ (by decide), rp 3 2 _ (by decide), rp 4 1 _ (by decide), rp 4 2 _ (by decide), rp 5 1 _ (by decide),
    rp 5 2 _ (by decide), rp 6 1 _ (by decide), rp 6 2 _ (by decide)]
  simp [ite_b]

/-- C110. A proof of a good modulus with positive parts is read back as it was. -/
theorem C110_mod_proof (w a b : ℤ) (xs zs : List ℤ) (hx : xs.length = 80) (hz : zs.length = 80)
    (hpos : 0 < w ∧ 0 < a ∧ 0 < b ∧ (∀ x ∈ xs, 0 < x) ∧ ∀ z ∈ zs, 0 < z) (sch prm : Bytes) :
    ∃ bzs, ModProof.toBytes ⟨some w, xs.map some, some a, some b, zs.map some⟩ = .ok bzs ∧
      modProof (.kg3 sch bzs prm) = some (some ⟨some w, xs.map some, some a, some b, zs.map some⟩) := by
  obtain ⟨bzs, h1, h2⟩ := ModProof.C41_round_trip w a b xs zs hx hz hpos
  exact ⟨bzs, h1, by simp only [modProof, h2]⟩

theorem factor_fields (m : Factor.Msg) (hl : (factorMarshal m).length < 2 ^ 64) :
    parseFields (factorMarshal m) =
      some ((sing 1 m.salt ++ sing 2 m.publicKey ++ sing 3 m.X ++ sing 4 m.Y).map fun p => (p.1, WVal.bytes p.2)) := by
  have e : factorMarshal m = encFields (sing 1 m.salt ++ sing 2 m.publicKey ++ sing 3 m.X ++ sing 4 m.Y) := by
    simp only [encFields_append, ← encField_eq]; rfl
  have g1 := Onsign.encField_length_ge 1 m.salt
  have g2 := Onsign.encField_length_ge 2 m.publicKey
  have g3 := Onsign.encField_length_ge 3 m.X
  have g4 := Onsign.encField_length_ge 4 m.Y
  unfold factorMarshal at hl
  simp only [List.length_append] at hl
  rw [e]
  apply parseFields_enc
  repeat' apply FieldsOk_append
  all_goals exact FieldsOk_sing (by norm_num) (by norm_num) (by omega)

/-- C110. A Paillier public key that is written out and read in is the same message, so that whoever reads it comes to the same public
key, or the same refusal. -/
theorem C110_public_key (m : AlicePaillier.PubKeyMessage) (hl : (pubKeyBytes m).length < 2 ^ 64) :
    pubKeyOfBytes (pubKeyBytes m) = some m ∧
      ∀ Hb, (pubKeyOfBytes (pubKeyBytes m)).map (AlicePaillier.ToPubkey Hb) = some (AlicePaillier.ToPubkey Hb m) := by
  have key : pubKeyOfBytes (pubKeyBytes m) = some m := by
    have e : pubKeyBytes m = encFields (([factorMarshal m.proof].map fun b => (1, b)) ++ sing 2 m.G) := by
      simp only [encFields_append, encFields_map, ← encField_eq]
      simp [pubKeyBytes]
    have g2 := Onsign.encField_length_ge 2 m.G
    have g1 : (factorMarshal m.proof).length ≤ ([factorMarshal m.proof].flatMap (encFieldRep 1)).length :=
      rep_le (by simp)
    have hl' : ([factorMarshal m.proof].flatMap (encFieldRep 1)).length + (encField 2 m.G).length < 2 ^ 64 := by
      rw [← List.length_append]
      simpa [pubKeyBytes] using hl
    have ok : FieldsOk (([factorMarshal m.proof].map fun b => (1, b)) ++ sing 2 m.G) := by
      apply FieldsOk_append
      · apply FieldsOk_rep (by norm_num) (by norm_num)
        intro b hb
        rw [List.mem_singleton.mp hb]; omega
      · exact FieldsOk_sing (by norm_num) (by norm_num) (by omega)
    unfold pubKeyOfBytes
    rw [e, parseFields_enc _ ok]
    simp only [List.map_append, getRepeated_append]
    have req : ∀ k (l : List Bytes), getRepeated k ((l.map fun b => (k, b)).map fun p => (p.1, WVal.bytes p.2)) = l :=
      fun k l => getRepeated_rep k l
    have ne : ∀ k n (b : Bytes), n ≠ k → getRepeated k ((sing n b).map fun p => (p.1, WVal.bytes p.2)) = [] :=
      fun k n b h => getRepeated_sing_ne k n b h
    have op : ∀ k n (b : Bytes), getBytes.getBytesOpt k ((sing n b).map fun p => (p.1, WVal.bytes p.2)) =
        if n = k ∧ b ≠ [] then some b else none := fun k n b => getBytesOpt_sing k n b
    have rp : ∀ k n (l : List Bytes), n ≠ k →
        getBytes.getBytesOpt k ((l.map fun b => (n, b)).map fun p => (p.1, WVal.bytes p.2)) = none :=
      fun k n l h => getBytesOpt_rep_ne k n l h
    have ite_b : ∀ b : Bytes, (if b = [] then none else some b).getD [] = b := by
      intro b; split <;> simp_all
    rw [req, ne 1 2 _ (by decide), List.append_nil]
    have hf := factor_fields m.proof (by omega)
    simp only [List.mapM_cons, List.mapM_nil, hf, Option.pure_def, Option.bind_eq_bind, Option.bind_some,
      List.flatten_cons, List.flatten_nil, List.append_nil, List.map_append, getBytes_eq, getBytesOpt_append, op]
    rw [rp 2 1 _ (by decide)]
    simp [ite_b]
  refine ⟨key, fun Hb => ?_⟩
  rw [key]; rfl

/-- C110, deviation. A number that is negative is read back without its sign. -/
theorem C110_sign_lost {frm : Option PartyID} {s : ℤ} {m : Message} (h : newSignRound3 frm s = some m) (hs0 : s < 0)
    (hs : Small m.content) : ∃ cont, arrives m cont ∧ sigma cont = some (-s) ∧ -s ≠ s := by
  refine ⟨_, arrives_of h hs, ?_, by omega⟩
  simp only [sigma, beNat_intBytes, Option.some.injEq]
  omega

/-- C110, deviation. The key generation message of round 2, as it is sent, carries no Paillier and no Pedersen numbers: the readers of these
answer zero, without an error. -/
theorem C110_no_parameters {frm : Option PartyID} {ssid srid u : Bytes} {X A : ECPoint} {m : Message}
    (h : newKGRound2 frm ssid srid X A u = some m) (hs : Small m.content) :
    ∃ cont, arrives m cont ∧ paillierPK cont = some 0 ∧ pedersenPK cont = some (0, 0) :=
  ⟨_, arrives_of h hs, rfl, rfl⟩

/-- C110, deviation. The key generation message of round 3, as it is sent, carries no proof about a modulus: the reader of one of these proofs
refuses, the reader of the other answers a proof with no content. -/
theorem C110_no_proofs {frm : Option PartyID} {sch : Bytes} {m : Message} (h : newKGRound3 frm sch = some m) (hs : Small m.content) :
    ∃ cont, arrives m cont ∧ modProof cont = some none ∧ prmProof cont = some (some ⟨[], [], [], [], [], []⟩) := by
  refine ⟨_, arrives_of h hs, ?_, ?_⟩
  · simp only [modProof]
    congr 1
  · show some (prmUnmarshal []) = _
    decide +kernel

/-! ### Concrete cases -/

/-- a curve with one point, (2, 3) -/
def one : Curve := ⟨7, 2, 3, fun x y => x = 2 ∧ y = 3, fun _ _ _ _ => (2, 3), fun _ _ _ => (2, 3), fun _ => (2, 3)⟩

def sender : Option PartyID := some ⟨"1", "p", some [5], 0⟩

/-- the hypotheses of `C110_keygen2`, and its conclusion on bytes -/
example : Sendable one ⟨2, 3⟩ ∧ ∃ m, newKGRound2 sender [1] [2, 3] ⟨2, 3⟩ ⟨2, 3⟩ [4] = some m ∧ Small m.content ∧
    pubXj one m.content = some (some ⟨2, 3⟩) ∧ payload one m.content = some (some ⟨⟨2, 3⟩, [1], [2, 3], [4]⟩) := by
  refine ⟨by unfold Sendable; decide, _, rfl, ?_, ?_, ?_⟩
  · unfold Wire.Small; decide +kernel
  · decide +kernel
  · decide +kernel

/-- a point off the curve is refused, whatever the sender -/
example : pubXj one (.kg2 [1] [2] [3] [2] [2] [3] [9] [] [] []) = some none := by decide +kernel

/-- a proof and a key in full -/
example : (prmMarshal ⟨[[1], []], [[2, 3]], [4], [], [5], [6]⟩).length < 2 ^ 64 ∧
    prmMarshal ⟨[[1], []], [[2, 3]], [4], [], [5], [6]⟩ = [10, 1, 1, 10, 0, 18, 2, 2, 3, 26, 1, 4, 42, 1, 5, 50, 1, 6] ∧
    pubKeyBytes ⟨⟨[1], [2], [3], [4]⟩, [5]⟩ = [10, 12, 10, 1, 1, 18, 1, 2, 26, 1, 3, 34, 1, 4, 18, 1, 5] := by
  decide +kernel

end Tss.Readers
