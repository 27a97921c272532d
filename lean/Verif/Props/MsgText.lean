import Verif.Model.MsgText
import Verif.Props.TssError
import Verif.Props.Messages
/-
C124: the text of a message object.
-/
namespace Tss.Messages
open Tss Text Wire TssError

/-! ### Specification -/

/-- What the text is to show of a message: type, sender, recipients (index and moniker), and whether it is a broadcast. -/
def spec.summary (m : Message) : Kind × Option (Int × String) × List (Int × String) × Bool :=
  (m.content.kind, m.routing.from_.map TssError.spec.shown, m.routing.to_.map TssError.spec.shown, m.wireBroadcast)

/-- No moniker of sender or recipient has a closing brace in it. -/
def spec.PlainNames (m : Message) : Prop :=
  ∀ p, (m.routing.from_ = some p ∨ p ∈ m.routing.to_) → (125 : UInt8) ∉ utf8 p.moniker

/-! ### Proofs -/

theorem pidString_shown {p q : PartyID} (h : TssError.spec.shown p = TssError.spec.shown q) : pidString p = pidString q := by
  simp only [TssError.spec.shown, Prod.mk.injEq] at h
  unfold pidString
  rw [h.1, h.2]

theorem fmtPids_shown : ∀ (l l' : List PartyID), l.map TssError.spec.shown = l'.map TssError.spec.shown →
    fmtPids (l.map some) = fmtPids (l'.map some)
  | [], [], _ => rfl
  | [], _ :: _, h => by simp at h
  | _ :: _, [], h => by simp at h
  | [p], [q], h => by
    simp only [List.map_cons, List.map_nil, List.cons.injEq, and_true] at h
    simp only [List.map_cons, List.map_nil, fmtPids, fmtPid]
    exact pidString_shown h
  | [_], _ :: _ :: _, h => by simp at h
  | _ :: _ :: _, [_], h => by simp at h
  | p :: p' :: r, q :: q' :: r', h => by
    rw [List.map_cons, List.map_cons] at h
    injection h with h1 h2
    have := fmtPids_shown (p' :: r) (q' :: r') h2
    simp only [List.map_cons, fmtPids, fmtPid] at this ⊢
    rw [pidString_shown h1, this]

theorem toText_shown (l l' : List PartyID) (h : l.map TssError.spec.shown = l'.map TssError.spec.shown) : toText l = toText l' := by
  have hn : l = [] ↔ l' = [] := by rw [← List.map_eq_nil_iff (f := TssError.spec.shown), h, List.map_eq_nil_iff]
  unfold toText
  by_cases e : l = []
  · rw [if_pos e, if_pos (hn.1 e)]
  · rw [if_neg e, if_neg (fun x => e (hn.2 x)), fmtPids_shown l l' h]

theorem fullName_plain : ∀ k : Kind, (44 : UInt8) ∉ k.fullName := by
  intro k; cases k <;> decide +kernel

theorem fullName_inj : ∀ k k' : Kind, k.fullName = k'.fullName → k = k' := by
  intro k k' h
  cases k <;> cases k' <;> first | rfl | exact absurd h (by decide +kernel)

theorem toText_cut {l l' : List PartyID} (hl : ∀ p ∈ l, (125 : UInt8) ∉ utf8 p.moniker) (hl' : ∀ p ∈ l', (125 : UInt8) ∉ utf8 p.moniker)
    {s t : Bytes} (h : toText l ++ s = toText l' ++ t) : l.map TssError.spec.shown = l'.map TssError.spec.shown ∧ s = t := by
  have ha : ascii "all" = [97, 108, 108] := by decide
  have plain : ∀ {l : List PartyID}, (∀ p ∈ l, (125 : UInt8) ∉ utf8 p.moniker) → ∀ p ∈ l.map some, TssError.spec.Plain p := by
    intro l hl p hp q e
    obtain ⟨x, hx, rfl⟩ := List.mem_map.1 hp
    injection e with e
    exact e ▸ hl x hx
  unfold toText at h
  by_cases e : l = []
  · by_cases e' : l' = []
    · rw [if_pos e, if_pos e'] at h
      exact ⟨by rw [e, e'], List.append_cancel_left h⟩
    · rw [if_pos e, if_neg e', ha] at h
      injection h with h _
      exact absurd h (by decide)
  · by_cases e' : l' = []
    · rw [if_neg e, if_pos e', ha] at h
      injection h with h _
      exact absurd h (by decide)
    · rw [if_neg e, if_neg e'] at h
      simp only [List.cons_append, List.append_assoc, List.nil_append, List.cons.injEq, true_and] at h
      obtain ⟨h1, h2⟩ := fmtPids_cut (l.map some) (l'.map some) (by simpa using e) (by simpa using e') (plain hl) (plain hl') s t h
      refine ⟨?_, h2⟩
      rw [List.map_map, List.map_map] at h1
      have hs : ∀ x : List PartyID, x.map (Option.map TssError.spec.shown ∘ some) = (x.map TssError.spec.shown).map some := by
        intro x; rw [List.map_map]; rfl
      rw [hs, hs] at h1
      exact (Function.Injective.list_map (Option.some_injective _)) h1

/-- **C124.** Printing a message crashes exactly if it has no sender. -/
theorem C124_crash_iff (m : Message) : m.text = none ↔ m.routing.from_ = none := by
  unfold Message.text
  cases m.routing.from_ <;> simp

/-- **C124.** The text depends on the summary only: nothing of the contents is in it - no share, nonce, proof or commitment - nor the
ids and keys of the parties. -/
theorem C124_contents_not_shown (m m' : Message) (h : spec.summary m = spec.summary m') : m.text = m'.text := by
  simp only [spec.summary, Prod.mk.injEq] at h
  obtain ⟨h1, h2, h3, h4⟩ := h
  unfold Message.text
  cases e : m.routing.from_ with
  | none => cases e' : m'.routing.from_ with
    | none => rfl
    | some f' => rw [e, e'] at h2; simp at h2
  | some f => cases e' : m'.routing.from_ with
    | none => rw [e, e'] at h2; simp at h2
    | some f' =>
      rw [e, e'] at h2
      simp only [Option.map_some, Option.some.injEq] at h2
      dsimp only
      rw [h1, pidString_shown h2, toText_shown _ _ h3, h4]

/-- **C124.** With no closing brace in a moniker, the text determines type, sender, recipients and flag. -/
theorem C124_text_determines (m m' : Message) (t : Bytes) (h : m.text = some t) (h' : m'.text = some t)
    (hp : spec.PlainNames m) (hp' : spec.PlainNames m') : spec.summary m = spec.summary m' := by
  have p1 : ascii ", From: " = 44 :: ascii " From: " := by decide
  have pb : ascii "true" = 116 :: ascii "rue" ∧ ascii "false" = 102 :: ascii "alse" := by decide
  unfold Message.text at h h'
  cases e : m.routing.from_ with
  | none => rw [e] at h; simp at h
  | some f =>
  cases e' : m'.routing.from_ with
  | none => rw [e'] at h'; simp at h'
  | some f' =>
  rw [e] at h
  rw [e'] at h'
  dsimp only at h h'
  have k := (Option.some.inj h).trans (Option.some.inj h').symm
  have k := List.append_cancel_left k
  rw [p1] at k
  obtain ⟨k1, -, k2⟩ := cut (fun c => c = 44) _ _ _ _ _ _ (fun c hc e => fullName_plain _ (e ▸ hc)) (fun c hc e => fullName_plain _ (e ▸ hc)) rfl rfl k
  have k2 := List.append_cancel_left k2
  obtain ⟨k3, k4⟩ := fmtPid_cut (p := some f) (q := some f') (fun q hq => by injection hq with hq; exact hq ▸ hp f (.inl e))
    (fun q hq => by injection hq with hq; exact hq ▸ hp' f' (.inl e')) k2
  have k4 := List.append_cancel_left k4
  obtain ⟨k5, k6⟩ := toText_cut (fun p hx => hp p (.inr hx)) (fun p hx => hp' p (.inr hx)) k4
  have k6 := List.append_cancel_left k6
  have k7 : m.wireBroadcast = m'.wireBroadcast := by
    unfold fmtBool at k6
    cases hb : m.wireBroadcast <;> cases hb' : m'.wireBroadcast <;> rw [hb, hb'] at k6 <;>
      first
        | rfl
        | (exfalso; simp only [Bool.false_eq_true, if_false, if_true, pb.1, pb.2] at k6; injection k6 with k6 _; exact absurd k6 (by decide))
  simp only [spec.summary, Prod.mk.injEq]
  exact ⟨fullName_inj _ _ k1, by rw [e, e']; exact k3, k5, k7⟩

/-- **C124.** Whatever a party builds for its peers can be printed, and shows the routing it was built with. -/
theorem C124_sent_prints (r : Routing) (c : Content) (m : Message) (h : newMessage r c = some m) :
    (∃ t, m.text = some t) ∧ spec.summary m =
      (c.kind, r.from_.map TssError.spec.shown, r.to_.map TssError.spec.shown, r.isBroadcast) := by
  unfold newMessage at h
  cases e : r.from_ with
  | none => rw [e] at h; simp at h
  | some f =>
    rw [e] at h
    simp only [Option.some.injEq] at h
    subst h
    refine ⟨?_, by simp only [spec.summary, e]⟩
    cases hx : (Message.mk r c r.isBroadcast).text with
    | none => rw [C124_crash_iff] at hx; simp [e] at hx
    | some t => exact ⟨t, rfl⟩

/-- **C124.** What comes back from the wire: the receiver always gets a message that prints. It prints as the sender's if the message
went to everybody and the receiver states the same sender and flag; a message for named recipients, though, reads "To: all" at the
receiver: its text is not the sender's, whatever sender and flag the receiver states. -/
theorem C124_received (r : Routing) (c : Content) (m : Message) (f : PartyID) (b : Bool) (h : newMessage r c = some m) (hs : Small c) :
    ∃ m', receive m.wire (some f) b = .ok m' ∧ m'.text ≠ none ∧ (r.to_ = [] → r.from_ = some f → b = r.isBroadcast → m'.text = m.text) ∧
    (r.to_ ≠ [] → spec.PlainNames m → (125 : UInt8) ∉ utf8 f.moniker → m'.text ≠ m.text) := by
  obtain ⟨h1, h2, h3, h4⟩ := C93_delivered h hs f b
  refine ⟨_, h1, ?_, fun ht hf hb => C124_contents_not_shown _ _ ?_, fun ht hp hp' he => ?_⟩
  · intro hx; rw [C124_crash_iff] at hx; simp at hx
  · simp only [spec.summary, h2, h3, h4, hf, ht, hb]
  · obtain ⟨⟨t, ht'⟩, -⟩ := C124_sent_prints r c m h
    have := C124_text_determines _ _ t (he.trans ht') ht' (fun p hpp => ?_) hp
    · simp only [spec.summary, Prod.mk.injEq, List.map_nil, h2] at this
      exact ht (List.map_eq_nil_iff.1 this.2.2.1.symm)
    · rcases hpp with hpp | hpp
      · injection hpp with hpp
        exact hpp ▸ hp'
      · simp at hpp

/-- **C124.** A message parsed without stating a sender (`ParseWireMsg`, as the accept functions do) crashes when printed. -/
theorem C124_parsed_without_sender (b : Bytes) (p : Parsed PartyID) (h : parseWireMsgFull b = .ok p) :
    (Message.mk ⟨p.from_, [], p.isBroadcast⟩ p.content p.isBroadcast).text = none := by
  unfold parseWireMsgFull at h
  generalize parseWireMsg b = w at h
  cases w with
  | none => simp at h
  | some c => simp only [Res.ok.injEq] at h; subst h; rfl

def exA : PartyID := ⟨"1", "alice", some [1], 0⟩
def exB : PartyID := ⟨"2", "bob", some [2], 1⟩

/-- Non-vacuity: the text of a round-1 message of signing to one peer, in full. -/
theorem C124_case : (newSignRound1b exB (some exA) [7]).bind Message.text =
      some (ascii "Type: legend.tsslib.eddsacmp.onsign.SignRound1Message2, From: {0,alice}, To: [{1,bob}], IsBroadcast: false ") ∧
    (newKGRound1 (some exA) [7]).bind Message.text =
      some (ascii "Type: legend.tsslib.eddsacmp.keygen.KGRound1Message, From: {0,alice}, To: all, IsBroadcast: true ") := by
  decide +kernel

end Tss.Messages
