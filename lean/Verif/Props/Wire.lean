import Verif.Lemmas.Wire
/-! C63: wire messages. -/
namespace Tss.Wire
open Tss Text

/-- The number of bytes a message occupies on the wire, apart from the type name, is at most 20 per field
plus the payload; Go slices are shorter than 2^63, so this is the only size condition. -/
def Small (c : Content) : Prop := (∀ b ∈ c.parts, b.length < 2 ^ 64) ∧ c.marshal.length < 2 ^ 64

/-- C63: parsing the wire bytes of any message gives the same content, with the sender and the broadcast
flag the caller states. -/
theorem C63_round_trip {P : Type} (c : Content) (h : Small c) (frm : P) (bc : Bool) :
    parseWireMessage (wireBytes c) (some frm) bc = .ok ⟨c, some frm, bc⟩ ∧
    parseWireMsgFull (P := P) (wireBytes c) = .ok ⟨c, none, false⟩ := by
  simp [parseWireMessage, parseWireMsgFull, parse_wireBytes c h.1 h.2]

example : Small (.sg2 [1, 2] [] [3]) := by unfold Small; decide +kernel
example : Small (.kg3 [1, 2] [[], [7]] [3]) := by unfold Small; decide +kernel

/-- C63: two messages with the same wire bytes are the same message. -/
theorem C63_injective (c d : Content) (hc : Small c) (hd : Small d) (h : wireBytes c = wireBytes d) : c = d := by
  have h1 := parse_wireBytes c hc.1 hc.2
  rw [h, parse_wireBytes d hd.1 hd.2] at h1
  exact (Option.some.inj h1).symm

/-- C63: the base64 text of a message decodes to the message. -/
theorem C63_base64 (c : Content) (h : Small c) :
    (b64Decode (b64Encode (wireBytes c))).bind parseWireMsg = some c := by
  rw [b64_round_trip]; exact parse_wireBytes c h.1 h.2

/-- C63: the empty byte string is rejected. -/
theorem C63_empty_rejected {P : Type} (frm : P) (bc : Bool) :
    parseWireMessage [] (some frm) bc = .err () ∧ parseWireMsgFull (P := P) [] = .err () := by
  have : parseWireMsg [] = none := by decide
  simp [parseWireMessage, parseWireMsgFull, this]

/-- C63: a message is only accepted under one of the registered type names: every other name is rejected,
whatever the payload is. -/
theorem C63_unknown_type_rejected {P : Type} (url payload : Bytes) (hu : url.length < 2 ^ 64)
    (hp : payload.length < 2 ^ 64) (hk : ∀ k : Kind, afterSlash url ≠ k.fullName) (frm : P) (bc : Bool) :
    parseWireMessage (encField 1 url ++ encField 2 payload) (some frm) bc = .err () := by
  have ok : FieldsOk (sing 1 url ++ sing 2 payload) :=
    FieldsOk_append (FieldsOk_sing (by norm_num) (by norm_num) hu) (FieldsOk_sing (by norm_num) (by norm_num) hp)
  have g1 : getBytes 1 (wv (sing 1 url ++ sing 2 payload)) = url := by
    simp only [List.map_append, getBytes_eq, getBytesOpt_append]
    rw [getBytesOpt_sing, getBytesOpt_sing]
    by_cases hc : url = [] <;> simp [hc]
  have kn : kindOfName (afterSlash url) = none := by
    unfold kindOfName
    rw [List.find?_eq_none]
    intro k _
    simpa using fun e => hk k e.symm
  have : parseWireMsg (encField 1 url ++ encField 2 payload) = none := by
    have e : encField 1 url ++ encField 2 payload = encFields (sing 1 url ++ sing 2 payload) := by
      rw [encFields_append, ← encField_eq, ← encField_eq]
    unfold parseWireMsg
    rw [e, parseFields_enc _ ok]
    have key : ∀ X : List (Nat × WVal), getBytes 1 X = url →
      (if !stringsOk 1 X then none else
        if getBytes 1 X = [] then none
        else match kindOfName (afterSlash (getBytes 1 X)) with
        | none => none
        | some k =>
          match parseFields (getBytes 2 X) with
          | none => none
          | some l2 => some (ofFields k l2)) = none := by
      intro X hX
      simp only [hX, kn]
      split
      · rfl
      · split <;> rfl
    exact key _ g1
  simp [parseWireMessage, this]

example : ∀ k : Kind, afterSlash (ascii "type.googleapis.com/google.protobuf.Empty") ≠ k.fullName := by
  intro k; cases k <;> decide +kernel

/-- C63: an accepted byte string is a sequence of protobuf fields whose first field names a registered
type and whose second field decodes as that type; nothing else is accepted. -/
theorem C63_accept_iff {P : Type} (b : Bytes) (frm : P) (bc : Bool) (m : Parsed P) :
    parseWireMessage b (some frm) bc = .ok m ↔
      ∃ l l2 k, parseFields b = some l ∧ stringsOk 1 l = true ∧ afterSlash (getBytes 1 l) = Kind.fullName k ∧
        parseFields (getBytes 2 l) = some l2 ∧ m = ⟨ofFields k l2, some frm, bc⟩ := by
  have knil : ∀ k : Kind, afterSlash [] ≠ k.fullName := by intro k; cases k <;> decide +kernel
  unfold parseWireMessage parseWireMsg
  constructor
  · intro h
    cases hl : parseFields b with
    | none => simp [hl] at h
    | some l =>
      simp only [hl] at h
      by_cases hs : stringsOk 1 l = true
      · simp only [hs, Bool.not_true, Bool.false_eq_true, if_false] at h
        by_cases hu : getBytes 1 l = []
        · simp [hu] at h
        · simp only [hu, if_false] at h
          cases hk : kindOfName (afterSlash (getBytes 1 l)) with
          | none => simp [hk] at h
          | some k =>
            simp only [hk] at h
            cases h2 : parseFields (getBytes 2 l) with
            | none => simp [h2] at h
            | some l2 =>
              simp only [h2, Res.ok.injEq] at h
              refine ⟨l, l2, k, rfl, hs, ?_, h2, h.symm⟩
              have := List.find?_some hk
              simpa using (of_decide_eq_true this).symm
      · simp [hs] at h
  · rintro ⟨l, l2, k, hl, hs, hk, h2, rfl⟩
    have hu : getBytes 1 l ≠ [] := fun e => knil k (by rw [← hk, e])
    simp [hl, hs, hu, hk, kindOfName_fullName, h2]

/-- C63: a nil sender crashes the caller before anything is parsed. -/
theorem C63_nil_sender_panics {P : Type} (b : Bytes) (bc : Bool) :
    parseWireMessage (P := P) b none bc = .panic := rfl

end Tss.Wire
