import Verif.Model.Commitments
import Verif.Props.Common
/-! C45 (hash commitments), C46 (commitment builder). -/
namespace Tss.Commit
open Tss Common

/-! ### C45 -/

/-- C45. A fresh commitment to non-nil secrets verifies, and decommitting returns exactly the secrets. -/
theorem C45_opens (H : Bytes → Bytes) (r : Int) (secrets : List Int) :
    ∃ cmt, NewHashCommitment H r (secrets.map some) = .ok cmt ∧ cmt.verify H = .ok true ∧
      cmt.deCommit H = .ok (true, some (secrets.map some)) := by
  have h : SHA512_256i H ((r :: secrets).map some) = .ok (some (beNat (H (frame ((r :: secrets).map intBytes))) : Int)) := by
    unfold SHA512_256i
    rw [if_neg (by simp), bytesOfAll_some]
  refine ⟨⟨some (beNat (H (frame ((r :: secrets).map intBytes))) : Int), some ((r :: secrets).map some)⟩, ?_, ?_, ?_⟩
  · unfold NewHashCommitment NewHashCommitmentWithRandomness
    rw [show (some r :: secrets.map some) = (r :: secrets).map some from rfl, h]
  · unfold HashCommitDecommit.verify
    simp only
    rw [h]
    simp
  · unfold HashCommitDecommit.deCommit
    simp only [List.map_cons]
    unfold HashCommitDecommit.verify
    simp only
    rw [show (some r :: secrets.map some) = (r :: secrets).map some from rfl, h]
    simp

theorem verify_true {H : Bytes → Bytes} {C : Option Int} {D : List Int}
    (h : HashCommitDecommit.verify H ⟨C, some (D.map some)⟩ = .ok true) :
    D ≠ [] ∧ ∃ c, C = some c ∧ SHA512_256i H (D.map some) = .ok (some c) := by
  unfold HashCommitDecommit.verify at h
  cases C with
  | none => simp at h
  | some c =>
    simp only at h
    by_cases hD : D = []
    · subst hD; simp [SHA512_256i] at h
    · refine ⟨hD, c, rfl, ?_⟩
      cases hs : SHA512_256i H (D.map some) with
      | ok o =>
        rw [hs] at h
        cases o with
        | none => simp at h
        | some v => simp at h; rw [h]
      | err e => rw [hs] at h; simp at h
      | panic => rw [hs] at h; simp at h

/-- C45. Binding: two decommitments that verify against the same commitment are equal up to the signs of the integers,
or their framed encodings are two different strings with the same SHA-512/256 digest. -/
theorem C45_binding (H : Bytes → Bytes) (hlen : ∀ x, (H x).length = 32) (C : Option Int) (D D' : List Int)
    (hD : SizedInts D) (hD' : SizedInts D')
    (h : HashCommitDecommit.verify H ⟨C, some (D.map some)⟩ = .ok true)
    (h' : HashCommitDecommit.verify H ⟨C, some (D'.map some)⟩ = .ok true) :
    D.map Int.natAbs = D'.map Int.natAbs ∨
      (frame (D.map intBytes) ≠ frame (D'.map intBytes) ∧ H (frame (D.map intBytes)) = H (frame (D'.map intBytes))) := by
  obtain ⟨n1, c, rfl, e1⟩ := verify_true h
  obtain ⟨n2, c', hc, e2⟩ := verify_true h'
  obtain rfl := Option.some.inj hc
  rcases C02_int_digest_binding H hlen D D' hD hD' n1 n2 (e1.trans e2.symm) with e | ⟨a, b⟩
  · exact .inl e
  · exact .inr ⟨a, b⟩

/-- C45. The signs are not bound: flipping the sign of any secrets keeps the commitment valid. -/
theorem C45_sign_not_bound (H : Bytes → Bytes) (C : Option Int) (D D' : List Int)
    (hs : D.map Int.natAbs = D'.map Int.natAbs) :
    HashCommitDecommit.verify H ⟨C, some (D.map some)⟩ = HashCommitDecommit.verify H ⟨C, some (D'.map some)⟩ := by
  unfold HashCommitDecommit.verify
  cases C with
  | none => rfl
  | some c =>
    simp only
    rw [(C02_sign_not_bound H [] D D' hs).1]

/-- C45. DeCommit returns secrets only when Verify holds, and then everything behind the randomness; otherwise nothing. -/
theorem C45_decommit_iff (H : Bytes → Bytes) (C : Int) (r : Int) (t : List Int) :
    let cmt : HashCommitDecommit := ⟨some C, some (some r :: t.map some)⟩
    (cmt.deCommit H = .ok (true, some (t.map some)) ↔ cmt.verify H = .ok true) ∧
    (cmt.deCommit H = .ok (false, none) ↔ cmt.verify H = .ok false) ∧ (cmt.verify H = .ok true ∨ cmt.verify H = .ok false) := by
  intro cmt
  have h : SHA512_256i H ((r :: t).map some) = .ok (some (beNat (H (frame ((r :: t).map intBytes))) : Int)) := by
    unfold SHA512_256i
    rw [if_neg (by simp), bytesOfAll_some]
  have hv : cmt.verify H = .ok ((beNat (H (frame ((r :: t).map intBytes))) : Int) == C) := by
    show HashCommitDecommit.verify H ⟨some C, some ((r :: t).map some)⟩ = _
    unfold HashCommitDecommit.verify
    simp only
    rw [h]
  have hd : cmt.deCommit H = match cmt.verify H with
      | .ok true => .ok (true, some (t.map some))
      | .ok false => .ok (false, none)
      | .err e => .err e
      | .panic => .panic := rfl
  rw [hd, hv]
  cases ((beNat (H (frame ((r :: t).map intBytes))) : Int) == C) <;> simp

/-- C45. Crashes: verification of an empty decommitment panics, so does decommitting with an empty or nil one or without
a commitment. -/
theorem C45_crashes (H : Bytes → Bytes) (C : Int) :
    HashCommitDecommit.verify H ⟨some C, some []⟩ = .panic ∧ HashCommitDecommit.deCommit H ⟨some C, some []⟩ = .panic ∧
    HashCommitDecommit.deCommit H ⟨some C, none⟩ = .panic ∧ (∀ D, HashCommitDecommit.deCommit H ⟨none, D⟩ = .panic) ∧
    HashCommitDecommit.verify H ⟨some C, none⟩ = .ok false ∧ ∀ D, HashCommitDecommit.verify H ⟨none, D⟩ = .ok false := by
  refine ⟨rfl, rfl, rfl, fun D => rfl, rfl, fun D => ?_⟩
  cases D <;> rfl

/-- C45 non-vacuity: a commitment to [5, -7] opens under a toy hash, and [5, 7] opens the same commitment. -/
example : ∃ cmt, NewHashCommitment (fun _ => List.replicate 32 1) 9 [some 5, some (-7)] = .ok cmt ∧
    cmt.verify (fun _ => List.replicate 32 1) = .ok true := by
  obtain ⟨c, h1, h2, -⟩ := C45_opens (fun _ => List.replicate 32 1) 9 [5, -7]
  exact ⟨c, h1, h2⟩

/-- C45. A decommitment sent as bytes and read back verifies iff the original does. -/
theorem C45_wire (H : Bytes → Bytes) (C : Option Int) (D : List Int) :
    HashCommitDecommit.verify H ⟨C, some (NewHashDeCommitmentFromBytes (D.map intBytes))⟩ =
      HashCommitDecommit.verify H ⟨C, some (D.map some)⟩ := by
  have : NewHashDeCommitmentFromBytes (D.map intBytes) = (D.map fun z : Int => (z.natAbs : Int)).map some := by
    unfold NewHashDeCommitmentFromBytes
    simp [List.map_map, Function.comp_def]
  rw [this]
  refine C45_sign_not_bound H C _ D ?_
  simp only [List.map_map, Function.comp_def, Int.natAbs_natCast]

/-! ### C46 -/

namespace spec
/-- The layout: each part behind its length. -/
def layout : List (List (Option Int)) → List (Option Int)
  | [] => []
  | p :: t => some (p.length : Int) :: (p ++ layout t)
end spec

theorem secretsLoop_ok (parts : List (List (Option Int))) :
    (∀ p ∈ parts, p.length ≤ 1048576) → secretsLoop parts = .ok (spec.layout parts) := by
  induction parts with
  | nil => intro _; rfl
  | cons p t ih =>
    intro h
    unfold secretsLoop
    rw [if_neg (by have := h p (by simp); unfold MaxPartSize; omega), ih fun q hq => h q (by simp [hq])]
    rfl

theorem secretsLoop_large (parts : List (List (Option Int))) :
    (∃ p ∈ parts, 1048576 < p.length) → secretsLoop parts = .err .tooLarge := by
  induction parts with
  | nil => simp
  | cons p t ih =>
    rintro ⟨q, hq, hl⟩
    unfold secretsLoop
    split
    · rfl
    · next hn =>
      rcases List.mem_cons.mp hq with rfl | hq
      · exact absurd (by unfold MaxPartSize; omega) hn
      · rw [ih ⟨q, hq, hl⟩]

/-- C46. Secrets: at most three parts of at most 2^20 integers are laid out, each behind its length; anything else is refused. -/
theorem C46_secrets (parts : List (List (Option Int))) :
    (parts.length ≤ 3 → (∀ p ∈ parts, p.length ≤ 1048576) → Secrets parts = .ok (spec.layout parts)) ∧
    (3 < parts.length → Secrets parts = .err .tooMany) ∧
    (parts.length ≤ 3 → (∃ p ∈ parts, 1048576 < p.length) → Secrets parts = .err .tooLarge) := by
  refine ⟨fun h1 h2 => ?_, fun h => ?_, fun h1 h2 => ?_⟩
  · unfold Secrets; rw [if_neg (by unfold PartsCap; omega), secretsLoop_ok parts h2]
  · unfold Secrets; rw [if_pos (by unfold PartsCap; omega)]
  · unfold Secrets; rw [if_neg (by unfold PartsCap; omega), secretsLoop_large parts h2]

theorem int64_small {n : Nat} (h : n ≤ 1048576) : int64 (n : Int) = n := by
  unfold int64
  rw [Int.emod_eq_of_lt (by omega) (by omega), if_pos (by omega)]

theorem parse_layout (parts : List (List (Option Int))) : ∀ (n : Nat), n + parts.length ≤ 3 →
    (∀ p ∈ parts, p.length ≤ 1048576) →
    parseLoop n (spec.layout parts) = .ok (if parts.getLast? = some [] then parts.dropLast else parts) := by
  induction parts with
  | nil => intro n _ _; unfold parseLoop; rfl
  | cons p t ih =>
    intro n hn h
    have hp := h p (by simp)
    unfold spec.layout parseLoop
    simp only [int64_small hp]
    rw [if_neg (by unfold MaxPartSize; omega)]
    simp only [List.length_cons] at hn
    by_cases he : p ++ spec.layout t = []
    · rw [if_pos he]
      obtain ⟨rfl, h2⟩ := List.append_eq_nil_iff.mp he
      cases t with
      | nil => rfl
      | cons q u => simp [spec.layout] at h2
    · rw [if_neg he, if_neg (by unfold PartsCap; omega), if_neg (by simp), if_neg (by omega)]
      simp only [Int.toNat_natCast, List.drop_left, List.take_left]
      rw [ih (n + 1) (by omega) fun q hq => h q (by simp [hq])]
      simp only
      cases t with
      | nil =>
        have : p ≠ [] := fun e => he (by rw [e]; rfl)
        simp [this]
      | cons q u =>
        rw [List.getLast?_cons_cons]
        split <;> simp

theorem layout_length (parts : List (List (Option Int))) : (spec.layout parts).length = (parts.map fun p => p.length + 1).sum := by
  induction parts with
  | nil => rfl
  | cons p t ih => simp [spec.layout, ih]; omega

/-- C46. Round trip: what Secrets lays out, ParseSecrets reads back, when the last part is not empty. -/
theorem C46_round_trip (parts : List (List (Option Int))) (h1 : parts.length ≤ 3) (h2 : ∀ p ∈ parts, p.length ≤ 1048576)
    (last : List (Option Int)) (h3 : parts.getLast? = some last) (h4 : last ≠ []) :
    ∃ s, Secrets parts = .ok s ∧ ParseSecrets s = .ok parts := by
  refine ⟨_, (C46_secrets parts).1 h1 h2, ?_⟩
  unfold ParseSecrets
  have hl : 2 ≤ (spec.layout parts).length := by
    obtain ⟨l, rfl⟩ := List.getLast?_eq_some_iff.mp h3
    rw [layout_length]
    have : 1 ≤ last.length := List.length_pos_iff.mpr h4
    simp
    omega
  rw [if_neg (by omega), parse_layout parts 0 (by omega) h2, h3]
  rw [if_neg (by simpa using h4)]

/-- C46. A trailing empty part is lost without an error. -/
theorem C46_trailing_empty_lost (parts : List (List (Option Int))) (h1 : parts.length ≤ 2) (h0 : parts ≠ [])
    (h2 : ∀ p ∈ parts, p.length ≤ 1048576) :
    ∃ s, Secrets (parts ++ [[]]) = .ok s ∧ ParseSecrets s = .ok parts := by
  have hb : ∀ p ∈ parts ++ [[]], p.length ≤ 1048576 := by
    intro p hp
    rcases List.mem_append.mp hp with h | h
    · exact h2 p h
    · simp at h; simp [h]
  refine ⟨_, (C46_secrets _).1 (by simp; omega) hb, ?_⟩
  unfold ParseSecrets
  have hl : 2 ≤ (spec.layout (parts ++ [[]])).length := by
    rw [layout_length]
    cases parts with
    | nil => exact absurd rfl h0
    | cons p t => simp; omega
  rw [if_neg (by omega), parse_layout _ 0 (by simp; omega) hb]
  simp

theorem parseLoop_sound : ∀ (m : Nat) (l : List (Option Int)) (n : Nat) (parts : List (List (Option Int))), l.length ≤ m → n ≤ 3 →
    parseLoop n l = .ok parts → n + parts.length ≤ 3 ∧ (∀ p ∈ parts, p.length ≤ 1048576) ∧
    ∃ (hs : List Int) (tail : List (Option Int)), hs.length = parts.length ∧ tail.length ≤ 1 ∧
      (hs.zip parts).flatMap (fun q => some q.1 :: q.2) ++ tail = l ∧ hs.map int64 = parts.map fun p => (p.length : Int) := by
  intro m
  induction m with
  | zero =>
    intro l n parts hl hn h
    have : l = [] := List.length_eq_zero_iff.mp (by omega)
    subst this
    unfold parseLoop at h
    cases h
    exact ⟨by simpa using hn, by simp, [], [], rfl, by simp, rfl, rfl⟩
  | succ m ih =>
    intro l n parts hl hn h
    match l, h with
    | [], h =>
      unfold parseLoop at h
      cases h
      exact ⟨by simpa using hn, by simp, [], [], rfl, by simp, rfl, rfl⟩
    | none :: t, h => unfold parseLoop at h; cases h
    | some x :: t, h =>
      unfold parseLoop at h
      simp only at h
      split at h
      · cases h
      · next g1 =>
        split at h
        · next g2 =>
          cases h
          subst g2
          exact ⟨by simpa using hn, by simp, [], [some x], rfl, by simp, rfl, rfl⟩
        · split at h
          · cases h
          · next g3 =>
            split at h
            · cases h
            · next g4 =>
              split at h
              · cases h
              · next g5 =>
                cases hp : parseLoop (n + 1) (t.drop (int64 x).toNat) with
                | err e => rw [hp] at h; cases h
                | panic => rw [hp] at h; cases h
                | ok l =>
                  rw [hp] at h
                  cases h
                  simp only [List.length_cons] at hl
                  obtain ⟨a1, a2, hs, tail, a3, a4, a5, a6⟩ := ih _ (n + 1) l (by simp only [List.length_drop]; omega)
                    (by unfold PartsCap at g3; omega) hp
                  have hk : (t.take (int64 x).toNat).length = (int64 x).toNat := by
                    rw [List.length_take]; omega
                  unfold MaxPartSize at g1
                  refine ⟨by simp only [List.length_cons]; omega, ?_, x :: hs, tail, by simp [a3], a4, ?_, ?_⟩
                  · intro p hp'
                    rcases List.mem_cons.mp hp' with rfl | hp'
                    · omega
                    · exact a2 p hp'
                  · simp only [List.zip_cons_cons, List.flatMap_cons, List.append_assoc, List.cons_append, a5]
                    rw [List.take_append_drop]
                  · simp only [List.map_cons, a6, hk]
                    rw [Int.toNat_of_nonneg (by omega)]

/-- C46. Whatever ParseSecrets accepts is a layout: at most three parts of at most 2^20 integers, each behind an element
whose low 64 bits are its length; only one element may be left over at the end. -/
theorem C46_parse_sound (s : List (Option Int)) (parts : List (List (Option Int))) (h : ParseSecrets s = .ok parts) :
    parts.length ≤ 3 ∧ (∀ p ∈ parts, p.length ≤ 1048576) ∧
    ∃ (hs : List Int) (tail : List (Option Int)), hs.length = parts.length ∧ tail.length ≤ 1 ∧
      (hs.zip parts).flatMap (fun q => some q.1 :: q.2) ++ tail = s ∧ hs.map int64 = parts.map fun p => (p.length : Int) := by
  unfold ParseSecrets at h
  split at h
  · cases h
  · have := parseLoop_sound s.length s 0 parts (Nat.le_refl _) (by omega) h
    simpa using this

/-- C46. The element left over is ignored whatever length it announces: a list cut off behind a length element parses. -/
theorem C46_cut_off_accepted (parts : List (List (Option Int))) (h1 : parts.length ≤ 3) (h0 : parts ≠ [])
    (h2 : ∀ p ∈ parts, p.length ≤ 1048576) (x : Nat) (hx : x ≤ 1048576) :
    ParseSecrets (spec.layout parts ++ [some (x : Int)]) = .ok parts := by
  have aux : ∀ (parts : List (List (Option Int))) (n : Nat), n + parts.length ≤ 3 → (∀ p ∈ parts, p.length ≤ 1048576) →
      parseLoop n (spec.layout parts ++ [some (x : Int)]) = .ok parts := by
    intro parts
    induction parts with
    | nil =>
      intro n _ _
      unfold spec.layout
      rw [List.nil_append]
      unfold parseLoop
      simp only [int64_small hx]
      rw [if_neg (by unfold MaxPartSize; omega)]
      rfl
    | cons p t ih =>
      intro n hn h
      have hp := h p (by simp)
      simp only [List.length_cons] at hn
      unfold spec.layout
      simp only [List.cons_append, List.append_assoc]
      unfold parseLoop
      simp only [int64_small hp]
      rw [if_neg (by unfold MaxPartSize; omega), if_neg (by simp), if_neg (by unfold PartsCap; omega),
        if_neg (by simp; omega), if_neg (by omega)]
      simp only [Int.toNat_natCast, List.drop_left, List.take_left]
      rw [ih (n + 1) (by omega) fun q hq => h q (by simp [hq])]
  unfold ParseSecrets
  rw [if_neg, aux parts 0 (by omega) h2]
  rw [List.length_append, layout_length]
  cases parts with
  | nil => exact absurd rfl h0
  | cons p t => simp; omega

/-- C46. A first length element whose low 64 bits are negative crashes the parser. -/
theorem C46_negative_length_crashes (x : Int) (hx : int64 x < 0) (y : Option Int) (t : List (Option Int)) :
    ParseSecrets (some x :: y :: t) = .panic := by
  unfold ParseSecrets
  rw [if_neg (by simp)]
  unfold parseLoop
  simp only
  rw [if_neg (by unfold MaxPartSize; omega), if_neg (by simp), if_neg (by decide), if_neg (by simp; omega), if_pos hx]

/-- C46 non-vacuity: -1 and 2^63 are such lengths; a round trip with an empty part in front. -/
example : int64 (-1) < 0 ∧ int64 (2 ^ 63) < 0 ∧ ParseSecrets [some (-1), some 5] = .panic ∧
    ∃ s, Secrets [[], [some 4, some 5], [some (-1)]] = .ok s ∧ ParseSecrets s = .ok [[], [some 4, some 5], [some (-1)]] :=
  ⟨by decide, by decide, C46_negative_length_crashes _ (by decide) _ _,
    C46_round_trip _ (by decide) (by decide) [some (-1)] rfl (by decide)⟩

end Tss.Commit
