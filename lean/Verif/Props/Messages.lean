import Verif.Model.Messages
import Verif.Props.Wire
import Verif.Props.Keygen
import Verif.Props.Onsign
import Verif.Lemmas.KeygenInv
import Verif.Lemmas.Ed25519Order
/-!
C93: which messages count as complete, what honest parties send, and that the C-style API never asks.
-/
namespace Tss.Messages
open Tss Wire Text

/-! ### Specification -/
namespace spec

/-- The fields a message of each type must not leave empty. -/
def required : Content → List Bytes
  | .kg1 commitment => [commitment]
  | .kg2 ssid srid xx xy ax ay u _ _ _ => [ssid, srid, xx, xy, ax, ay, u]
  | .kg3 schProof _ _ => [schProof]
  | .sg1a bigK => [bigK]
  | .sg1b encProof => [encProof]
  | .sg2 rx ry logProof => [rx, ry, logProof]
  | .sg3 sigma => [sigma]

/-- A complete message: none of them is empty. -/
def Complete (c : Content) : Prop := [] ∉ required c

/-- A party that may be a sender: it has a key and an index. -/
def Sender (p : PartyID) : Prop := p.key ≠ none ∧ 0 ≤ p.index

end spec

theorem ne_iff (b : Bytes) : Common.NonEmptyBytes b = true ↔ b ≠ [] := by
  cases b <;> simp [Common.NonEmptyBytes]

/-- C93. A message passes its own validation exactly if it is complete. -/
theorem C93_complete_iff (c : Content) : validateBasic c = true ↔ spec.Complete c := by
  cases c <;> simp only [validateBasic, spec.Complete, spec.required, Bool.and_eq_true, ne_iff, List.mem_cons, List.not_mem_nil, or_false,
    not_or, Ne, @eq_comm _ [] _]
  · tauto
  · tauto

/-- C93. A message read from the wire passes the party's validation exactly if the claimed sender may be one and the message is complete. -/
theorem C93_validate_message {b : Bytes} {frm : Option PartyID} {bc : Bool} {m : Message} (h : receive b frm bc = .ok m) :
    Party.ValidateMessage m.seen = .ok () ↔ (∃ p, frm = some p ∧ spec.Sender p) ∧ spec.Complete m.content := by
  cases frm with
  | none => cases h
  | some p =>
    unfold receive parseWireMessage at h
    simp only at h
    cases hp : parseWireMsg b with
    | none => rw [hp] at h; cases h
    | some c =>
      rw [hp] at h
      simp only [Res.ok.injEq] at h
      subst h
      have h1 := C93_complete_iff c
      unfold Party.ValidateMessage Message.seen PartyID.ValidateBasic spec.Sender
      simp only [Bool.or_self, Bool.false_eq_true, if_false]
      cases hk : p.key <;> by_cases hi : 0 ≤ p.index <;> cases hv : validateBasic c <;>
        simp_all

/-- C93. What a constructor made arrives with its content, but with the sender and the broadcast flag that the receiving side states:
neither is on the wire. -/
theorem C93_delivered {meta_ : Routing} {c : Content} {m : Message} (h : newMessage meta_ c = some m) (hs : Small c) (p : PartyID)
    (bc : Bool) : receive m.wire (some p) bc = .ok ⟨⟨some p, [], bc⟩, c, bc⟩ ∧ m.routing = meta_ ∧ m.content = c ∧
      m.wireBroadcast = meta_.isBroadcast := by
  unfold newMessage at h
  cases hf : meta_.from_ with
  | none => rw [hf] at h; cases h
  | some q =>
    rw [hf] at h
    simp only [Option.some.injEq] at h
    subst h
    refine ⟨?_, rfl, rfl, rfl⟩
    unfold receive Message.wire
    rw [(C63_round_trip c hs p bc).1]

/-- C93. Two messages with one content have the same bytes, whoever they are from and to: the wire does not bind a message to a session,
a sender or a receiver. -/
theorem C93_no_routing_on_the_wire {meta_ meta' : Routing} {c : Content} {m m' : Message} (h : newMessage meta_ c = some m)
    (h' : newMessage meta' c = some m') : m.wire = m'.wire := by
  unfold newMessage at h h'
  cases hf : meta_.from_ <;> cases hf' : meta'.from_ <;> rw [hf] at h <;> rw [hf'] at h' <;> simp only [reduceCtorEq, Option.some.injEq] at h h'
  subst h h'
  rfl

/-- C93. The constructors: each broadcast type says so and names no receiver, each type for one party names it; none works without a
sender. -/
theorem C93_routing (p q : PartyID) (b s1 s2 u : Bytes) (X A : ECPoint) (z : Int) :
    (newKGRound1 (some p) b).map (·.routing) = some ⟨some p, [], true⟩ ∧
    (newKGRound2 (some p) s1 s2 X A u).map (·.routing) = some ⟨some p, [], true⟩ ∧
    (newKGRound3 (some p) b).map (·.routing) = some ⟨some p, [], true⟩ ∧
    (newSignRound1a (some p) z).map (·.routing) = some ⟨some p, [], true⟩ ∧
    (newSignRound1b q (some p) b).map (·.routing) = some ⟨some p, [q], false⟩ ∧
    (newSignRound2 q (some p) X b).map (·.routing) = some ⟨some p, [q], false⟩ ∧
    (newSignRound3 (some p) z).map (·.routing) = some ⟨some p, [], true⟩ ∧
    newKGRound1 none b = none ∧ newKGRound2 none s1 s2 X A u = none ∧ newKGRound3 none b = none ∧ newSignRound1a none z = none ∧
    newSignRound1b q none b = none ∧ newSignRound2 q none X b = none ∧ newSignRound3 none z = none :=
  ⟨rfl, rfl, rfl, rfl, rfl, rfl, rfl, rfl, rfl, rfl, rfl, rfl, rfl, rfl⟩

end Tss.Messages

namespace Tss.Ed
open Tss Edw

theorem x_zero {g : Point} (h : g.x = 0) : (2 : Nat) • g = 0 := by
  have : -g = g := by ext <;> simp [h]
  rw [two_nsmul]
  nth_rewrite 1 [← this]
  exact neg_add_cancel g

theorem two_smul_B {k : Int} (h : (2 : Nat) • k • B = 0) : k % ord = 0 := by
  have h1 : (2 * k) • B = 0 := by
    rw [mul_smul]
    rw [← natCast_zsmul] at h
    exact h
  rw [← addOrderOf_dvd_iff_zsmul_eq_zero, addOrderOf_B] at h1
  have h2 : (ord : Int) ∣ k := by
    have hp := Nat.prime_iff_prime_int.mp ord_prime
    rcases hp.dvd_or_dvd h1 with h2 | h2
    · have h3 := Int.natCast_dvd_natCast.mp (show ((ord : Nat) : Int) ∣ ((2 : Nat) : Int) from h2)
      have := Nat.le_of_dvd (by norm_num) h3
      have h4 : ¬ ord ≤ 2 := by decide +kernel
      exact absurd this h4
    · exact h2
  exact Int.emod_eq_zero_of_dvd h2

theorem smul_B_x {k : Int} : (k • B).x = 0 ↔ k % ord = 0 := by
  constructor
  · exact fun h => two_smul_B (x_zero h)
  · intro h
    have : k • B = 0 := by rw [← addOrderOf_dvd_iff_zsmul_eq_zero, addOrderOf_B]; exact Int.dvd_of_emod_eq_zero h
    rw [this]; rfl

theorem smul_B_y (k : Int) : (k • B).y ≠ 0 := by
  intro h
  have h1 : ((2 : Nat) • k • B).x = 0 := by
    rw [two_nsmul, Pt.add_x]
    unfold addX
    rw [h]; simp
  have h2 : (2 : Nat) • k • B = (2 * k) • B := by rw [mul_smul, ← natCast_zsmul]; rfl
  rw [h2] at h1
  have h3 := smul_B_x.1 h1
  have h4 : (2 * k) • B = 0 := by rw [← addOrderOf_dvd_iff_zsmul_eq_zero, addOrderOf_B]; exact Int.dvd_of_emod_eq_zero h3
  rw [← h2] at h4
  have h5 := two_smul_B h4
  have h6 : k • B = 0 := by rw [← addOrderOf_dvd_iff_zsmul_eq_zero, addOrderOf_B]; exact Int.dvd_of_emod_eq_zero h5
  rw [h6] at h
  exact one_ne_zero h

end Tss.Ed

namespace Tss.Messages
open Tss Wire Text

/-- The coordinates of `k * G` as they are sent: the second is never empty, the first is empty exactly for the neutral element. -/
theorem coords_sent {k : Int} {X : ECPoint} (h : ECPoint.scalarBaseMult Ed.curve k = some X) :
    (intBytes X.x ≠ [] ↔ k % Ed.curve.N ≠ 0) ∧ intBytes X.y ≠ [] := by
  rw [Ed.lawful.scalarBaseMult_pt] at h
  injection h with h
  have hb : Ed.lawful.base = Ed.B := rfl
  rw [hb] at h
  subst h
  have h1 := @Ed.smul_B_x k
  have h2 := Ed.smul_B_y k
  have hN : Ed.curve.N = ((Ed.ord : Nat) : Int) := rfl
  rw [hN]
  have e1 : (Ed.lawful.pt (k • Ed.B)).x = (((k • Ed.B).x.val : Nat) : Int) := rfl
  have e2 : (Ed.lawful.pt (k • Ed.B)).y = (((k • Ed.B).y.val : Nat) : Int) := rfl
  rw [e1, e2]
  generalize k • Ed.B = g at *
  constructor
  · rw [Ne, Ne, intBytes_eq_nil, Int.natCast_eq_zero, ZMod.val_eq_zero, h1]
  · rw [Ne, intBytes_eq_nil, Int.natCast_eq_zero, ZMod.val_eq_zero]; exact h2

theorem opening_logic {a b c d e f g P Q : Prop} (h1 : ¬ a ↔ P) (h2 : ¬ b) (h3 : ¬ c ↔ Q) (h4 : ¬ d) :
    (¬ e ∧ ¬ f ∧ ¬ a ∧ ¬ b ∧ ¬ c ∧ ¬ d ∧ ¬ g) ↔ P ∧ Q ∧ ¬ e ∧ ¬ f ∧ ¬ g := by tauto

theorem nonce_logic {a b c P : Prop} (h1 : ¬ a ↔ P) (h2 : ¬ b) : (¬ a ∧ ¬ b ∧ ¬ c) ↔ P ∧ ¬ c := by tauto

/-- C93. The opening that an honest party sends in key generation is complete exactly if neither its share nor its commitment nonce is a
multiple of the group order and no string is empty. -/
theorem C93_honest_opening {x a : Int} {X A : ECPoint} (hX : ECPoint.scalarBaseMult Ed.curve x = some X)
    (hA : ECPoint.scalarBaseMult Ed.curve a = some A) (p : PartyID) (ssid srid u : Bytes) :
    ∃ m, newKGRound2 (some p) ssid srid X A u = some m ∧
      (validateBasic m.content = true ↔ x % Ed.curve.N ≠ 0 ∧ a % Ed.curve.N ≠ 0 ∧ ssid ≠ [] ∧ srid ≠ [] ∧ u ≠ []) := by
  refine ⟨_, rfl, ?_⟩
  obtain ⟨h1, h2⟩ := coords_sent hX
  obtain ⟨h3, h4⟩ := coords_sent hA
  rw [C93_complete_iff]
  simp only [spec.Complete, spec.required, List.mem_cons, List.not_mem_nil, or_false, not_or]
  simp only [@eq_comm _ [] _]
  exact opening_logic h1 h2 h3 h4

/-- C93. The nonce point that an honest signer sends is complete exactly if the nonce is no multiple of the group order and the proof is
not empty. -/
theorem C93_honest_nonce_point {k : Int} {R : ECPoint} (hR : ECPoint.scalarBaseMult Ed.curve k = some R) (p q : PartyID) (proof : Bytes) :
    ∃ m, newSignRound2 q (some p) R proof = some m ∧ (validateBasic m.content = true ↔ k % Ed.curve.N ≠ 0 ∧ proof ≠ []) := by
  refine ⟨_, rfl, ?_⟩
  obtain ⟨h1, h2⟩ := coords_sent hR
  rw [C93_complete_iff]
  simp only [spec.Complete, spec.required, List.mem_cons, List.not_mem_nil, or_false, not_or]
  simp only [@eq_comm _ [] _]
  exact nonce_logic h1 h2

/-- C93. The numbers that are sent alone - the encrypted nonce, a signature share - are complete exactly if they are not 0. -/
theorem C93_honest_numbers (p : PartyID) (z : Int) :
    (∃ m, newSignRound1a (some p) z = some m ∧ (validateBasic m.content = true ↔ z ≠ 0)) ∧
    (∃ m, newSignRound3 (some p) z = some m ∧ (validateBasic m.content = true ↔ z ≠ 0)) := by
  constructor <;> refine ⟨_, rfl, ?_⟩ <;> rw [C93_complete_iff] <;>
    simp only [spec.Complete, spec.required, List.mem_cons, List.not_mem_nil, or_false] <;>
    rw [@eq_comm _ [] _, intBytes_eq_nil]

theorem C93_example : ∃ X : ECPoint, ECPoint.scalarBaseMult Ed.curve 5 = some X ∧ (5 : Int) % Ed.curve.N ≠ 0 := by
  exact ⟨_, Ed.lawful.scalarBaseMult_pt 5, by decide +kernel⟩

/-! ### The API does not ask -/

/-- The message of a kind with every field left out. -/
def blank : Kind → Content
  | .kg1 => .kg1 [] | .kg2 => .kg2 [] [] [] [] [] [] [] [] [] [] | .kg3 => .kg3 [] [] [] | .sg1a => .sg1a [] | .sg1b => .sg1b []
  | .sg2 => .sg2 [] [] [] | .sg3 => .sg3 []

/-- it is not complete -/
theorem blank_incomplete (k : Kind) : ¬ spec.Complete (blank k) := by cases k <;> simp [spec.Complete, spec.required, blank]

theorem blank_parses (k : Kind) : parseWireMsg (wireBytes (blank k)) = some (blank k) := by
  have : Wire.Small (blank k) := by cases k <;> (unfold Wire.Small; decide +kernel)
  exact parse_wireBytes _ this.1 this.2

/-- C93, deviation. Key generation accepts, in each round and from each party, a message with no field at all, which the party's
validation refuses. -/
theorem C93_keygen_accepts_incomplete {e : Keygen.Env} {r : Keygen.Reg} {key : Bytes} {p : Keygen.Party} (hr : Keygen.Reach e r)
    (hk : r key = some p) {i : Nat} (hi : i < p.ids.length) (rd : Keygen.Round) :
    (rd.accept r key i (b64Encode (wireBytes (blank rd.kind)))).1 = .ok () ∧ validateBasic (blank rd.kind) = false := by
  have hinv := Keygen.reach_inv e hr key p hk
  have hl : (rd.msgs p).length = p.ids.length := by cases rd; exacts [hinv.lm1, hinv.lm2, hinv.lm3]
  constructor
  · refine (Keygen.C15_accept_effect rd r key p hk i _ (wireBytes (blank rd.kind)) (b64_round_trip _) ⟨by omega, by omega⟩).2.1.2
      ⟨_, blank_parses _, by cases rd <;> rfl⟩
  · rw [← Bool.not_eq_true, C93_complete_iff]; exact blank_incomplete _

/-- C93, deviation. So does signing. -/
theorem C93_sign_accepts_incomplete {e : Onsign.Env} {r : Onsign.Reg} {key : Bytes} {p : Onsign.Party} (hr : Onsign.Reach e r)
    (hk : r key = some p) {i : Nat} (hi : i < p.ids.length) :
    (Onsign.OnSignRound1MsgAccept r key i (b64Encode (wireBytes (.sg1a [])))).1 = .ok () ∧
    (Onsign.OnSignRound1MsgAccept r key i (b64Encode (wireBytes (.sg1b [])))).1 = .ok () ∧
    (Onsign.OnSignRound2MsgAccept r key i (b64Encode (wireBytes (.sg2 [] [] [])))).1 = .ok () ∧
    (Onsign.OnSignRound3MsgAccept r key i (b64Encode (wireBytes (.sg3 [])))).1 = .ok () := by
  refine ⟨?_, ?_, ?_, ?_⟩
  · rw [Onsign.C51_accept1_files_broadcast hr hk hi (b64_round_trip _) (show parseWireMsg (wireBytes (.sg1a [])) = some (Content.sg1a []) from blank_parses .sg1a)]
  · rw [Onsign.C51_accept1_files_p2p hr hk hi (b64_round_trip _) (show parseWireMsg (wireBytes (.sg1b [])) = some (Content.sg1b []) from blank_parses .sg1b)]
  · exact (Onsign.C51_accept2_overwrites hr hk hi (b64_round_trip _)).2.2 ⟨_, _, _, blank_parses .sg2⟩
  · exact (Onsign.C51_accept3_overwrites hr hk hi (b64_round_trip _)).2.2 ⟨_, blank_parses .sg3⟩

end Tss.Messages
