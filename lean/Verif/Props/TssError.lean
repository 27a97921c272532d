import Verif.Model.TssError
import Verif.Lemmas.Text
import Mathlib.Tactic.Common
/-
C101: what the text of an error tells.
-/
namespace Tss.TssError
open Tss Tss.Text

/-! ### Specification -/

/-- What a text shows of a party: index and moniker. -/
def spec.shown (p : PartyID) : Int × String := (p.index, p.moniker)

/-- No closing brace in the moniker. -/
def spec.Plain (p : Option PartyID) : Prop := ∀ q, p = some q → (125 : UInt8) ∉ utf8 q.moniker

/-! ### Proofs -/

theorem utf8_inj {a b : String} (h : utf8 a = utf8 b) : a = b := by
  unfold utf8 at h
  have h1 : a.toUTF8.data = b.toUTF8.data := Array.toList_inj.1 h
  have h2 : a.toUTF8 = b.toUTF8 := ByteArray.ext h1
  exact String.toByteArray_inj.1 h2

theorem cut (P : UInt8 → Prop) : ∀ (a b : Bytes) (x y : UInt8) (s t : Bytes), (∀ c ∈ a, ¬ P c) → (∀ c ∈ b, ¬ P c) → P x → P y →
    a ++ x :: s = b ++ y :: t → a = b ∧ x = y ∧ s = t
  | [], [], x, y, s, t, _, _, _, _, h => by
    simp only [List.nil_append, List.cons.injEq] at h; exact ⟨rfl, h.1, h.2⟩
  | [], c :: b, x, y, s, t, _, hb, hx, _, h => by
    simp only [List.nil_append, List.cons_append, List.cons.injEq] at h
    exact absurd (h.1 ▸ hx) (hb c (by simp))
  | c :: a, [], x, y, s, t, ha, _, _, hy, h => by
    simp only [List.nil_append, List.cons_append, List.cons.injEq] at h
    exact absurd (h.1 ▸ hy) (ha c (by simp))
  | c :: a, d :: b, x, y, s, t, ha, hb, hx, hy, h => by
    simp only [List.cons_append, List.cons.injEq] at h
    obtain ⟨h1, h2⟩ := h
    obtain ⟨e1, e2⟩ := cut P a b x y s t (fun c hc => ha c (by simp [hc])) (fun c hc => hb c (by simp [hc])) hx hy h2
    exact ⟨by rw [h1, e1], e2⟩

theorem fmtInt_chars (i : Int) : ∀ c ∈ fmtInt i, ¬ (c = 44 ∨ c = 58) := by
  have hd : ∀ n, ∀ c ∈ itoa n, ¬ (c = 44 ∨ c = 58) := by
    rintro n c hc (rfl | rfl)
    · have := itoa_digits n _ hc; simp at this
    · have := itoa_digits n _ hc; simp at this
  unfold fmtInt
  split
  · intro c hc
    rcases List.mem_cons.1 hc with rfl | hc
    · decide
    · exact hd _ c hc
  · exact hd _

theorem fmtInt_inj {i j : Int} (h : fmtInt i = fmtInt j) : i = j := by
  have hm : ∀ n m t, itoa n = 45 :: t → itoa m = itoa m → False := by
    intro n m t hn _
    have := itoa_digits n 45 (by rw [hn]; simp)
    simp at this
  unfold fmtInt at h
  split at h <;> split at h
  · injection h with _ h
    have := itoa_injective h
    omega
  · exact (hm _ 0 _ h.symm rfl).elim
  · exact (hm _ 0 _ h rfl).elim
  · have := itoa_injective h
    omega

/-- The text of a party is self-delimiting. -/
theorem fmtPid_cut {p q : Option PartyID} (hp : spec.Plain p) (hq : spec.Plain q) {s t : Bytes} (h : fmtPid p ++ s = fmtPid q ++ t) :
    p.map spec.shown = q.map spec.shown ∧ s = t := by
  have hnil : ascii "<nil>" = [60, 110, 105, 108, 62] := by decide
  cases p with
  | none =>
    cases q with
    | none => exact ⟨rfl, List.append_cancel_left h⟩
    | some q =>
      unfold fmtPid pidString at h
      rw [hnil] at h
      injection h with h _
      exact absurd h (by decide)
  | some p =>
    cases q with
    | none =>
      unfold fmtPid pidString at h
      rw [hnil] at h
      injection h with h _
      exact absurd h (by decide)
    | some q =>
      unfold fmtPid pidString at h
      simp only [List.cons_append, List.append_assoc, List.cons.injEq, true_and, List.nil_append] at h
      obtain ⟨h1, -, h2⟩ := cut (fun c => c = 44 ∨ c = 58) _ _ _ _ _ _ (fmtInt_chars p.index) (fmtInt_chars q.index) (.inl rfl) (.inl rfl) h
      obtain ⟨h3, -, h4⟩ := cut (fun c => c = 125) _ _ _ _ _ _ (fun c hc e => hp p rfl (e ▸ hc)) (fun c hc e => hq q rfl (e ▸ hc)) rfl rfl h2
      refine ⟨?_, h4⟩
      simp only [Option.map_some, spec.shown]
      rw [fmtInt_inj h1, utf8_inj h3]

theorem fmtPids_cut : ∀ (l l' : List (Option PartyID)), l ≠ [] → l' ≠ [] → (∀ p ∈ l, spec.Plain p) → (∀ p ∈ l', spec.Plain p) →
    ∀ s t : Bytes, fmtPids l ++ 93 :: s = fmtPids l' ++ 93 :: t →
    l.map (Option.map spec.shown) = l'.map (Option.map spec.shown) ∧ s = t
  | [], _, h, _, _, _, _, _, _ => absurd rfl h
  | _, [], _, h, _, _, _, _, _ => absurd rfl h
  | [p], [q], _, _, hp, hq, s, t, h => by
    unfold fmtPids at h
    obtain ⟨h1, h2⟩ := fmtPid_cut (hp p (by simp)) (hq q (by simp)) h
    injection h2 with _ h2
    exact ⟨by simp [h1], h2⟩
  | [p], q :: q' :: r, _, _, hp, hq, s, t, h => by
    simp only [fmtPids, List.append_assoc, List.cons_append] at h
    obtain ⟨h1, h2⟩ := fmtPid_cut (hp p (by simp)) (hq q (by simp)) h
    injection h2 with h2 _
    exact absurd h2 (by decide)
  | p :: p' :: r, [q], _, _, hp, hq, s, t, h => by
    simp only [fmtPids, List.append_assoc, List.cons_append] at h
    obtain ⟨h1, h2⟩ := fmtPid_cut (hp p (by simp)) (hq q (by simp)) h
    injection h2 with h2 _
    exact absurd h2 (by decide)
  | p :: p' :: r, q :: q' :: r', _, _, hp, hq, s, t, h => by
    simp only [fmtPids, List.append_assoc, List.cons_append] at h
    obtain ⟨h1, h2⟩ := fmtPid_cut (hp p (by simp)) (hq q (by simp)) h
    injection h2 with _ h2
    obtain ⟨h3, h4⟩ := fmtPids_cut (p' :: r) (q' :: r') (by simp) (by simp) (fun x hx => hp x (by simp [hx])) (fun x hx => hq x (by simp [hx])) s t h2
    exact ⟨by rw [List.map_cons, h1, h3, ← List.map_cons], h4⟩

/-- **C101.** If no task has a comma in it and no moniker a closing brace, the text of an error with a cause determines task, round,
index and moniker of the reporting party and of each culprit in order, and the text of the cause. -/
theorem C101_text_determines (e e' : Error) (c c' : Bytes) (hc : e.cause = some c) (hc' : e'.cause = some c')
    (ht : (44 : UInt8) ∉ e.task) (ht' : (44 : UInt8) ∉ e'.task) (hv : spec.Plain e.victim) (hv' : spec.Plain e'.victim)
    (hp : ∀ p ∈ e.culprits, spec.Plain p) (hp' : ∀ p ∈ e'.culprits, spec.Plain p)
    (h : Error.text (some e) = Error.text (some e')) :
    e.task = e'.task ∧ e.round = e'.round ∧ e.victim.map spec.shown = e'.victim.map spec.shown ∧
    e.culprits.map (Option.map spec.shown) = e'.culprits.map (Option.map spec.shown) ∧ c = c' := by
  have p1 : ascii ", party " = 44 :: ascii " party " := by decide
  have p2 : ascii ", culprits " = 44 :: ascii " culprits " := by decide
  have p3 : ascii ": " = 58 :: ascii " " := by decide
  have key : ∀ X X' : Bytes, ascii "task " ++ (e.task ++ (ascii ", party " ++ (fmtPid e.victim ++ (ascii ", round " ++ X)))) =
      ascii "task " ++ (e'.task ++ (ascii ", party " ++ (fmtPid e'.victim ++ (ascii ", round " ++ X')))) →
      e.task = e'.task ∧ e.victim.map spec.shown = e'.victim.map spec.shown ∧ X = X' := by
    intro X X' h
    have h := List.append_cancel_left h
    rw [p1] at h
    obtain ⟨h1, -, h2⟩ := cut (fun c => c = 44) _ _ _ _ _ _ (fun c hc e => ht (e ▸ hc)) (fun c hc e => ht' (e ▸ hc)) rfl rfl h
    have h2 := List.append_cancel_left h2
    obtain ⟨h3, h4⟩ := fmtPid_cut hv hv' h2
    exact ⟨h1, h3, List.append_cancel_left h4⟩
  have num : ∀ (x y : UInt8) (X X' : Bytes), (x = 44 ∨ x = 58) → (y = 44 ∨ y = 58) → fmtInt e.round ++ x :: X = fmtInt e'.round ++ y :: X' →
      e.round = e'.round ∧ x = y ∧ X = X' := by
    intro x y X X' hx hy h
    obtain ⟨h1, h2, h3⟩ := cut (fun c => c = 44 ∨ c = 58) _ _ _ _ _ _ (fmtInt_chars _) (fmtInt_chars _) hx hy h
    exact ⟨fmtInt_inj h1, h2, h3⟩
  unfold Error.text at h
  simp only [hc, hc'] at h
  by_cases n1 : e.culprits = []
  · by_cases n2 : e'.culprits = []
    · rw [if_neg (not_not.2 n1), if_neg (not_not.2 n2)] at h
      obtain ⟨a1, a2, a3⟩ := key _ _ h
      rw [p3] at a3
      obtain ⟨a4, -, a5⟩ := num _ _ _ _ (.inr rfl) (.inr rfl) a3
      exact ⟨a1, a4, a2, by rw [n1, n2], List.append_cancel_left a5⟩
    · rw [if_neg (not_not.2 n1), if_pos n2] at h
      obtain ⟨a1, a2, a3⟩ := key _ _ h
      rw [p3, p2] at a3
      obtain ⟨-, a5, -⟩ := num _ _ _ _ (.inr rfl) (.inl rfl) a3
      exact absurd a5 (by decide)
  · by_cases n2 : e'.culprits = []
    · rw [if_pos n1, if_neg (not_not.2 n2)] at h
      obtain ⟨a1, a2, a3⟩ := key _ _ h
      rw [p3, p2] at a3
      obtain ⟨-, a5, -⟩ := num _ _ _ _ (.inl rfl) (.inr rfl) a3
      exact absurd a5 (by decide)
    · rw [if_pos n1, if_pos n2] at h
      obtain ⟨a1, a2, a3⟩ := key _ _ h
      rw [p2] at a3
      obtain ⟨a4, -, a5⟩ := num _ _ _ _ (.inl rfl) (.inl rfl) a3
      have a5 := List.append_cancel_left a5
      injection a5 with _ a5
      obtain ⟨a6, a7⟩ := fmtPids_cut _ _ n1 n2 hp hp' _ _ a5
      exact ⟨a1, a4, a2, a6, List.append_cancel_left a7⟩

/-- **C101.** An error without a cause has the same text as no error at all, whoever it blames. -/
theorem C101_no_cause (e : Error) (h : e.cause = none) : Error.text (some e) = Error.text none := by
  unfold Error.text
  simp only [h]

/-- **C101.** An error a party makes before it has a round names no task and no reporting party, and round -1. -/
theorem C101_before_start (c : Bytes) (culprits : List (Option PartyID)) :
    Error.text (some (partyWrap none (some c) culprits)) = ascii "task , party <nil>, round -1" ++
      ((if culprits = [] then [] else ascii ", culprits [" ++ fmtPids culprits ++ ascii "]") ++ ascii ": " ++ c) := by
  unfold Error.text partyWrap newError
  have e1 : ascii "task , party <nil>, round -1" = ascii "task " ++ ([] ++ (ascii ", party " ++ (fmtPid none ++ (ascii ", round " ++ fmtInt (-1))))) := by
    decide +kernel
  have e2 : ascii ", culprits [" = ascii ", culprits " ++ [91] := by decide
  have e3 : ascii "]" = [93] := by decide
  by_cases h : culprits = []
  · simp only [h, ne_eq, not_true_eq_false, if_false, if_true, e1, List.append_assoc, List.nil_append]
  · simp only [h, ne_eq, not_false_eq_true, if_false, if_true, e1, e2, e3, List.append_assoc, List.nil_append, List.cons_append]

/-- **C101.** Two errors made in rounds that look alike were made in rounds of the same task and number, by parties with the same index and
moniker, for causes with the same text, and blame the same parties in the same order. -/
theorem C101_in_round (task task' : Bytes) (n n' : Int) (v v' : Option PartyID) (c c' : Bytes) (l l' : List (Option PartyID))
    (ht : (44 : UInt8) ∉ task) (ht' : (44 : UInt8) ∉ task') (hv : spec.Plain v) (hv' : spec.Plain v')
    (hp : ∀ p ∈ l, spec.Plain p) (hp' : ∀ p ∈ l', spec.Plain p)
    (h : Error.text (some (partyWrap (some (task, n, v)) (some c) l)) = Error.text (some (partyWrap (some (task', n', v')) (some c') l'))) :
    task = task' ∧ n = n' ∧ v.map spec.shown = v'.map spec.shown ∧ l.map (Option.map spec.shown) = l'.map (Option.map spec.shown) ∧ c = c' :=
  C101_text_determines _ _ c c' rfl rfl ht ht' hv hv' hp hp' h

/-- **C101.** Keys and ids are not in the text: errors that differ only there look alike. -/
theorem C101_keys_not_shown (e : Error) (f : PartyID → PartyID) (hf : ∀ p, spec.shown (f p) = spec.shown p) :
    Error.text (some { e with victim := e.victim.map f, culprits := e.culprits.map (Option.map f) }) = Error.text (some e) := by
  have h1 : ∀ p, fmtPid (Option.map f p) = fmtPid p := by
    rintro (_ | p)
    · rfl
    · have := hf p
      unfold spec.shown at this
      injection this with a b
      simp only [Option.map_some, fmtPid, pidString, a, b]
  have h2 : ∀ l : List (Option PartyID), fmtPids (l.map (Option.map f)) = fmtPids l := by
    intro l
    induction l with
    | nil => rfl
    | cons p t ih =>
      cases t with
      | nil => exact h1 p
      | cons q t => 
        rw [List.map_cons] at ih ⊢
        rw [List.map_cons, fmtPids, ih, h1, fmtPids]
  obtain ⟨cause, task, round, victim, culprits⟩ := e
  unfold Error.text
  cases cause with
  | none => rfl
  | some c =>
    simp only [h1, h2, ne_eq, List.map_eq_nil_iff]

/-- **C101, deviation.** Without the condition on monikers the text does not tell who is blamed: one party that calls itself "a} {1,b"
looks like two. -/
theorem C101_moniker_forges : ∃ p q r : PartyID, ∀ (task cause : Bytes) (round : Int) (v : Option PartyID),
    Error.text (some ⟨some cause, task, round, v, [some p]⟩) = Error.text (some ⟨some cause, task, round, v, [some q, some r]⟩) := by
  refine ⟨⟨"", "a} {1,b", none, 0⟩, ⟨"", "a", none, 0⟩, ⟨"", "b", none, 1⟩, fun task cause round v => ?_⟩
  have h : fmtPids [some ⟨"", "a} {1,b", none, 0⟩] = fmtPids [some ⟨"", "a", none, 0⟩, some ⟨"", "b", none, 1⟩] := by
    decide +kernel
  unfold Error.text
  simp only [ne_eq, reduceCtorEq, not_false_eq_true, if_true, h]

/-- **C101, example.** A text with two culprits; the parties meet the condition on monikers. -/
theorem C101_example :
    Error.text (some ⟨some (ascii "bad proof"), ascii "eddsa-cmp-keygen", 3, some ⟨"1", "ann", none, 0⟩, [some ⟨"2", "bob", none, 1⟩, some ⟨"3", "", none, 2⟩]⟩) =
      ascii "task eddsa-cmp-keygen, party {0,ann}, round 3, culprits [{1,bob} {2,}]: bad proof" ∧
    Error.text (some (partyWrap none (some (ascii "x")) [])) = ascii "task , party <nil>, round -1: x" ∧
    spec.Plain (some ⟨"2", "bob", none, 1⟩) ∧ (44 : UInt8) ∉ ascii "eddsa-cmp-keygen" := by
  refine ⟨by decide +kernel, by decide +kernel, ?_, by decide⟩
  rintro q h
  injection h with h
  subst h
  decide +kernel

end Tss.TssError
