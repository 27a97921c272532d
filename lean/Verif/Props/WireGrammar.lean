import Verif.Props.Wire
import Verif.Lemmas.JsonText
import Mathlib.Tactic.Ring
import Mathlib.Tactic.Linarith
/-!
C129: the wire parser reads exactly the protobuf wire format: the specification below is the grammar of the format as an
inductive relation (no fuel, no order of evaluation), the theorems say that the parser accepts a byte string with a list
of fields exactly when the grammar derives it, and that it derives at most one.
-/
namespace Tss.Wire
open Tss Text

namespace spec

/-- Base-128 groups, least significant first; the last byte is the one below 128.  Superfluous zero groups are allowed. -/
inductive Groups : Bytes → Nat → Prop
  | last (b : UInt8) : b.toNat < 128 → Groups [b] b.toNat
  | more (b : UInt8) {t : Bytes} {v : Nat} : 128 ≤ b.toNat → Groups t v → Groups (b :: t) (b.toNat - 128 + 128 * v)

/-- A varint: at most ten groups, a 64-bit value. -/
def Varint (s : Bytes) (v : Nat) : Prop := Groups s v ∧ s.length ≤ 10 ∧ v < 2 ^ 64

/-- A tag: field number `n` and wire type `w`. -/
def Tag (s : Bytes) (n w : Nat) : Prop := Varint s (n * 8 + w) ∧ 1 ≤ n ∧ n < 2 ^ 29 ∧ w < 8

/-- `Reads none s l`: `s` is a message with the fields `l`.  `Reads (some n) s l`: `s` is the inside of a group of field `n`
with its end tag. -/
inductive Reads : Option Nat → Bytes → List (Nat × WVal) → Prop
  | done : Reads none [] []
  | close {n t} : Tag t n 4 → Reads (some n) t []
  | varint {g t n s v r l} : Tag t n 0 → Varint s v → Reads g r l → Reads g (t ++ s ++ r) ((n, .varint v) :: l)
  | fixed64 {g t n s r l} : Tag t n 1 → s.length = 8 → Reads g r l → Reads g (t ++ s ++ r) ((n, .fixed) :: l)
  | fixed32 {g t n s r l} : Tag t n 5 → s.length = 4 → Reads g r l → Reads g (t ++ s ++ r) ((n, .fixed) :: l)
  | bytes {g t n k b r l} : Tag t n 2 → Varint k b.length → Reads g r l → Reads g (t ++ (k ++ b) ++ r) ((n, .bytes b) :: l)
  | group {g t n s r l l'} : Tag t n 3 → Reads (some n) s l' → Reads g r l → Reads g (t ++ s ++ r) ((n, .group) :: l)

end spec

/-! ### varints -/

theorem pow7_split {i : Nat} (h : i ≤ 9) : (2 : Nat) ^ (7 * i) * 2 ^ (64 - 7 * i) = 2 ^ 64 := by
  rw [← pow_add]; congr 1; omega

theorem pow7_succ (i : Nat) : (2 : Nat) ^ (7 * (i + 1)) = 128 * 2 ^ (7 * i) := by
  rw [show 7 * (i + 1) = 7 + 7 * i by ring, pow_add]; norm_num

theorem aux_sound : ∀ (b : Bytes) (i acc v : Nat) (r : Bytes), i ≤ 9 → consumeVarintAux i acc b = some (v, r) →
    ∃ s w, b = s ++ r ∧ spec.Groups s w ∧ v = acc + w * 2 ^ (7 * i) ∧ s.length + i ≤ 10 ∧ w * 2 ^ (7 * i) < 2 ^ 64 := by
  intro b
  induction b with
  | nil => intro i acc v r _ h; simp [consumeVarintAux] at h
  | cons x t ih =>
    intro i acc v r hi h
    unfold consumeVarintAux at h
    by_cases h9 : i = 9
    · subst h9
      rw [if_pos rfl] at h
      by_cases hx : x.toNat < 2
      · rw [if_pos hx] at h
        simp only [Option.some.injEq, Prod.mk.injEq] at h
        obtain ⟨rfl, rfl⟩ := h
        exact ⟨[x], x.toNat, rfl, .last x (by omega), by norm_num, by simp, by norm_num; omega⟩
      · rw [if_neg hx] at h; cases h
    · rw [if_neg h9] at h
      have hle : i + 1 ≤ 9 := by omega
      by_cases hx : x.toNat < 128
      · rw [if_pos hx] at h
        simp only [Option.some.injEq, Prod.mk.injEq] at h
        obtain ⟨rfl, rfl⟩ := h
        refine ⟨[x], x.toNat, rfl, .last x hx, rfl, by simp; omega, ?_⟩
        have h1 := pow7_split hle
        rw [pow7_succ] at h1
        have h2 : 0 < 2 ^ (7 * i) := Nat.pow_pos (by norm_num)
        have h3 : 0 < 2 ^ (64 - 7 * (i + 1)) := Nat.pow_pos (by norm_num)
        calc x.toNat * 2 ^ (7 * i) < 128 * 2 ^ (7 * i) := Nat.mul_lt_mul_of_pos_right hx h2
          _ ≤ 128 * 2 ^ (7 * i) * 2 ^ (64 - 7 * (i + 1)) := Nat.le_mul_of_pos_right _ h3
          _ = 2 ^ 64 := h1
      · rw [if_neg hx] at h
        obtain ⟨s, w, rfl, h2, rfl, h4, h5⟩ := ih _ _ _ _ hle h
        refine ⟨x :: s, x.toNat - 128 + 128 * w, rfl, .more x (by omega) h2, ?_, by simp; omega, ?_⟩
        · rw [pow7_succ]; ring
        · have h1 := pow7_split hle
          rw [pow7_succ] at h1 h5
          have hlt := x.toNat_lt
          have h6 : x.toNat - 128 + 1 ≤ 128 := by omega
          have hM : 0 < 2 ^ (7 * i) := Nat.pow_pos (by norm_num)
          have h7 : w + 1 ≤ 2 ^ (64 - 7 * (i + 1)) := by
            rw [← h1, mul_comm w] at h5
            exact Nat.lt_of_mul_lt_mul_left h5
          generalize 2 ^ (64 - 7 * (i + 1)) = K at h1 h7
          generalize 2 ^ (7 * i) = M at h1 h5 hM ⊢
          have h8 : (w + 1) * (128 * M) ≤ 128 * M * K := by rw [mul_comm]; exact Nat.mul_le_mul_left _ h7
          rw [h1] at h8
          have h9 : (x.toNat - 128) * M < 128 * M := Nat.mul_lt_mul_of_pos_right (by omega) hM
          nlinarith

theorem aux_complete {s : Bytes} {w : Nat} (h : spec.Groups s w) : ∀ (i acc : Nat) (r : Bytes), s.length + i ≤ 10 →
    w * 2 ^ (7 * i) < 2 ^ 64 → consumeVarintAux i acc (s ++ r) = some (acc + w * 2 ^ (7 * i), r) := by
  induction h with
  | last b hb =>
    intro i acc r h1 h2
    simp only [List.cons_append, List.nil_append, consumeVarintAux]
    by_cases h9 : i = 9
    · subst h9
      rw [if_pos rfl, if_pos (by norm_num at h2; omega)]
    · rw [if_neg h9, if_pos hb]
  | @more b t v hb ht ih =>
    intro i acc r h1 h2
    have ht0 : 1 ≤ t.length := by cases ht <;> simp
    simp only [List.length_cons] at h1
    simp only [List.cons_append, consumeVarintAux]
    rw [if_neg (by omega), if_neg (by omega)]
    rw [ih (i + 1) _ r (by omega) (by
      rw [pow7_succ]
      refine lt_of_le_of_lt ?_ h2
      rw [← mul_assoc]
      exact Nat.mul_le_mul_right _ (by omega))]
    rw [pow7_succ]
    congr 2; ring

/-- C129: the varint reader takes a prefix exactly if that prefix is a varint. -/
theorem C129_varint (b r : Bytes) (v : Nat) : consumeVarint b = some (v, r) ↔ ∃ s, b = s ++ r ∧ spec.Varint s v := by
  unfold consumeVarint
  constructor
  · intro h
    obtain ⟨s, w, h1, h2, h3, h4, h5⟩ := aux_sound b 0 0 v r (by omega) h
    simp only [mul_zero, pow_zero, mul_one, zero_add, add_zero] at h3 h4 h5
    subst h3
    exact ⟨s, h1, h2, h4, h5⟩
  · rintro ⟨s, rfl, h1, h2, h3⟩
    have := aux_complete h1 0 0 r (by omega) (by simpa using h3)
    simpa using this

theorem tag_iff (b r : Bytes) (n w : Nat) : consumeTag b = some (n, w, r) ↔ ∃ s, b = s ++ r ∧ spec.Tag s n w := by
  unfold consumeTag spec.Tag
  constructor
  · intro h
    cases hv : consumeVarint b with
    | none => simp [hv] at h
    | some q =>
      obtain ⟨v, r'⟩ := q
      simp only [hv] at h
      split at h
      · next hc =>
        simp only [Option.some.injEq, Prod.mk.injEq] at h
        obtain ⟨rfl, rfl, rfl⟩ := h
        obtain ⟨s, h1, h2⟩ := (C129_varint b _ v).mp hv
        refine ⟨s, h1, ?_, hc.1, hc.2, by omega⟩
        rwa [show v / 8 * 8 + v % 8 = v by omega]
      · cases h
  · rintro ⟨s, rfl, h1, h2, h3, h4⟩
    rw [(C129_varint _ r (n * 8 + w)).mpr ⟨s, rfl, h1⟩]
    simp only
    have e1 : (n * 8 + w) / 8 = n := by omega
    have e2 : (n * 8 + w) % 8 = w := by omega
    rw [e1, e2, if_pos ⟨h2, h3⟩]

theorem groups_pos {s : Bytes} {v : Nat} (h : spec.Groups s v) : 1 ≤ s.length := by cases h <;> simp

theorem tag_pos {s : Bytes} {n w : Nat} (h : spec.Tag s n w) : 1 ≤ s.length := groups_pos h.1.1

/-! ### fields -/

/-- `s` is the value of a field of number `num` and wire type `w` -/
def IsVal (num w : Nat) (s : Bytes) (v : WVal) : Prop :=
  ∀ t g r l, spec.Tag t num w → spec.Reads g r l → spec.Reads g (t ++ s ++ r) ((num, v) :: l)

theorem sound_aux (f : Nat) :
    (∀ num w b v r, consumeVal f num w b = some (v, r) → ∃ s, b = s ++ r ∧ IsVal num w s v) ∧
    ∀ num b r, consumeGroup f num b = some r → ∃ s l, b = s ++ r ∧ spec.Reads (some num) s l := by
  induction f with
  | zero => constructor <;> intros <;> simp_all [consumeVal, consumeGroup]
  | succ f ih =>
    obtain ⟨ih1, ih2⟩ := ih
    constructor
    · intro num w b v r h
      unfold consumeVal at h
      by_cases h0 : w = 0
      · subst h0
        rw [if_pos rfl, Option.map_eq_some_iff] at h
        obtain ⟨⟨a, q⟩, h1, h2⟩ := h
        simp only [Prod.mk.injEq] at h2
        obtain ⟨rfl, rfl⟩ := h2
        obtain ⟨s, h3, h4⟩ := (C129_varint _ _ _).mp h1
        exact ⟨s, h3, fun t g r l ht hr => .varint ht h4 hr⟩
      rw [if_neg h0] at h
      by_cases h1 : w = 1
      · subst h1
        rw [if_pos rfl] at h
        by_cases hl : b.length < 8
        · rw [if_pos hl] at h; cases h
        · rw [if_neg hl] at h
          simp only [Option.some.injEq, Prod.mk.injEq] at h
          obtain ⟨rfl, rfl⟩ := h
          exact ⟨b.take 8, (List.take_append_drop 8 b).symm, fun t g r l ht hr =>
            .fixed64 ht (by simp; omega) hr⟩
      rw [if_neg h1] at h
      by_cases h5 : w = 5
      · subst h5
        rw [if_pos rfl] at h
        by_cases hl : b.length < 4
        · rw [if_pos hl] at h; cases h
        · rw [if_neg hl] at h
          simp only [Option.some.injEq, Prod.mk.injEq] at h
          obtain ⟨rfl, rfl⟩ := h
          exact ⟨b.take 4, (List.take_append_drop 4 b).symm, fun t g r l ht hr =>
            .fixed32 ht (by simp; omega) hr⟩
      rw [if_neg h5] at h
      by_cases h2 : w = 2
      · subst h2
        rw [if_pos rfl] at h
        cases hv : consumeVarint b with
        | none => simp [hv] at h
        | some q =>
          obtain ⟨n, q⟩ := q
          simp only [hv] at h
          by_cases hl : q.length < n
          · rw [if_pos hl] at h; cases h
          · rw [if_neg hl] at h
            simp only [Option.some.injEq, Prod.mk.injEq] at h
            obtain ⟨rfl, rfl⟩ := h
            obtain ⟨s, rfl, h4⟩ := (C129_varint _ _ _).mp hv
            refine ⟨s ++ q.take n, ?_, fun t g r l ht hr => .bytes ht ?_ hr⟩
            · rw [List.append_assoc, List.take_append_drop]
            · rwa [List.length_take, min_eq_left (by omega)]
      rw [if_neg h2] at h
      by_cases h3 : w = 3
      · subst h3
        rw [if_pos rfl, Option.map_eq_some_iff] at h
        obtain ⟨q, h6, h7⟩ := h
        simp only [Prod.mk.injEq] at h7
        obtain ⟨rfl, rfl⟩ := h7
        obtain ⟨s, l', rfl, h8⟩ := ih2 _ _ _ h6
        exact ⟨s, rfl, fun t g r l ht hr => .group ht h8 hr⟩
      · rw [if_neg h3] at h; cases h
    · intro num b r h
      unfold consumeGroup at h
      cases ht : consumeTag b with
      | none => simp [ht] at h
      | some q =>
        obtain ⟨n, t, q⟩ := q
        simp only [ht] at h
        obtain ⟨s, rfl, hs⟩ := (tag_iff _ _ _ _).mp ht
        by_cases h4 : t = 4
        · rw [if_pos h4] at h
          subst h4
          by_cases hn : n = num
          · rw [if_pos hn] at h
            subst hn; cases h
            exact ⟨s, [], rfl, .close hs⟩
          · rw [if_neg hn] at h; cases h
        · rw [if_neg h4] at h
          cases hv : consumeVal f n t q with
          | none => simp [hv] at h
          | some q' =>
            obtain ⟨v, r'⟩ := q'
            simp only [hv] at h
            obtain ⟨s', rfl, hs'⟩ := ih1 _ _ _ _ _ hv
            obtain ⟨s2, l, rfl, h2⟩ := ih2 _ _ _ h
            exact ⟨s ++ s' ++ s2, (n, v) :: l, by simp, hs' _ _ _ _ hs h2⟩

theorem sound_fields (f : Nat) : ∀ b l, parseFieldsAux f b = some l → spec.Reads none b l := by
  induction f with
  | zero =>
    intro b l h
    cases b with
    | nil => simp only [parseFieldsAux, Option.some.injEq] at h; subst h; exact .done
    | cons => simp [parseFieldsAux] at h
  | succ f ih =>
    intro b l h
    cases b with
    | nil => simp only [parseFieldsAux, Option.some.injEq] at h; subst h; exact .done
    | cons x y =>
      unfold parseFieldsAux at h
      cases ht : consumeTag (x :: y) with
      | none => simp [ht] at h
      | some q =>
        obtain ⟨n, t, q⟩ := q
        simp only [ht] at h
        cases hv : consumeVal (f + 1) n t q with
        | none => simp [hv] at h
        | some q' =>
          obtain ⟨v, r'⟩ := q'
          simp only [hv] at h
          rw [Option.map_eq_some_iff] at h
          obtain ⟨l', h1, rfl⟩ := h
          obtain ⟨s, h2, hs⟩ := (tag_iff _ _ _ _).mp ht
          obtain ⟨s', rfl, hs'⟩ := (sound_aux _).1 _ _ _ _ _ hv
          rw [h2, ← List.append_assoc]
          exact hs' _ _ _ _ hs (ih _ _ h1)

/-- what the parser does on a derived string -/
def Parses : Option Nat → Bytes → List (Nat × WVal) → Prop
  | none, b, l => ∀ f, b.length ≤ f → parseFieldsAux f b = some l
  | some n, b, _ => ∀ f r, b.length ≤ f → consumeGroup f n (b ++ r) = some r

theorem group_pos {n : Nat} {s : Bytes} {l} (h : spec.Reads (some n) s l) : 1 ≤ s.length := by
  cases h with
  | close ht => exact tag_pos ht
  | varint ht => have := tag_pos ht; simp; omega
  | fixed64 ht => have := tag_pos ht; simp; omega
  | fixed32 ht => have := tag_pos ht; simp; omega
  | bytes ht => have := tag_pos ht; simp; omega
  | group ht => have := tag_pos ht; simp; omega

theorem parses_field {g : Option Nat} {t s r : Bytes} {n w : Nat} {v : WVal} {l : List (Nat × WVal)} (ht : spec.Tag t n w)
    (hw : w ≠ 4) (hs : 1 ≤ s.length) (hr : g ≠ none → 1 ≤ r.length)
    (hv : ∀ f rest, s.length + 1 ≤ f → consumeVal f n w (s ++ rest) = some (v, rest)) (ih : Parses g r l) :
    Parses g (t ++ s ++ r) ((n, v) :: l) := by
  have htp := tag_pos ht
  cases g with
  | none =>
    intro f hf
    simp only [List.length_append] at hf
    obtain ⟨f, rfl⟩ : ∃ f', f = f' + 1 := ⟨f - 1, by omega⟩
    have htag := (tag_iff (t ++ s ++ r) (s ++ r) n w).mpr ⟨t, by simp, ht⟩
    have e : parseFieldsAux (f + 1) (t ++ s ++ r) = match consumeTag (t ++ s ++ r) with
      | none => none
      | some (n, t, r) =>
        match consumeVal (f + 1) n t r with
        | none => none
        | some (v, r') => (parseFieldsAux f r').map fun l => (n, v) :: l := by
      cases ht' : t ++ s ++ r with
      | nil => simp only [List.append_eq_nil_iff] at ht'; simp [ht'.1.1] at htp
      | cons x y => rfl
    rw [e, htag]
    simp only
    rw [hv (f + 1) r (by omega)]
    simp only
    rw [ih f (by omega)]; rfl
  | some m =>
    intro f rest hf
    simp only [List.length_append] at hf
    have hr' := hr (by simp)
    obtain ⟨f, rfl⟩ : ∃ f', f = f' + 1 := ⟨f - 1, by omega⟩
    have htag := (tag_iff (t ++ s ++ r ++ rest) (s ++ (r ++ rest)) n w).mpr ⟨t, by simp, ht⟩
    unfold consumeGroup
    rw [htag]
    simp only
    rw [if_neg hw, hv f (r ++ rest) (by omega)]
    simp only
    exact ih f rest (by omega)

theorem complete {g : Option Nat} {b : Bytes} {l : List (Nat × WVal)} (h : spec.Reads g b l) : Parses g b l := by
  induction h with
  | done => intro f _; cases f <;> rfl
  | @close n t ht =>
    intro f r hf
    have := tag_pos ht
    obtain ⟨f, rfl⟩ : ∃ f', f = f' + 1 := ⟨f - 1, by omega⟩
    unfold consumeGroup
    rw [(tag_iff (t ++ r) r n 4).mpr ⟨t, rfl, ht⟩]
    simp
  | @varint g t n s v r l ht hs hr ih =>
    refine parses_field ht (by omega) (groups_pos hs.1) (fun hg => ?_) ?_ ih
    · cases g with
      | none => exact absurd rfl hg
      | some m => exact group_pos hr
    · intro f rest hf
      obtain ⟨f, rfl⟩ : ∃ f', f = f' + 1 := ⟨f - 1, by omega⟩
      unfold consumeVal
      rw [if_pos rfl, (C129_varint (s ++ rest) rest v).mpr ⟨s, rfl, hs⟩]; rfl
  | @fixed64 g t n s r l ht hs hr ih =>
    refine parses_field ht (by omega) (by omega) (fun hg => ?_) ?_ ih
    · cases g with
      | none => exact absurd rfl hg
      | some m => exact group_pos hr
    · intro f rest hf
      obtain ⟨f, rfl⟩ : ∃ f', f = f' + 1 := ⟨f - 1, by omega⟩
      unfold consumeVal
      rw [if_neg (by omega), if_pos rfl, if_neg (by simp; omega), ← hs, List.drop_left]
  | @fixed32 g t n s r l ht hs hr ih =>
    refine parses_field ht (by omega) (by omega) (fun hg => ?_) ?_ ih
    · cases g with
      | none => exact absurd rfl hg
      | some m => exact group_pos hr
    · intro f rest hf
      obtain ⟨f, rfl⟩ : ∃ f', f = f' + 1 := ⟨f - 1, by omega⟩
      unfold consumeVal
      rw [if_neg (by omega), if_neg (by omega), if_pos rfl, if_neg (by simp; omega), ← hs, List.drop_left]
  | @bytes g t n k b r l ht hs hr ih =>
    have := groups_pos hs.1
    refine parses_field ht (by omega) (by simp; omega) (fun hg => ?_) ?_ ih
    · cases g with
      | none => exact absurd rfl hg
      | some m => exact group_pos hr
    · intro f rest hf
      obtain ⟨f, rfl⟩ : ∃ f', f = f' + 1 := ⟨f - 1, by omega⟩
      unfold consumeVal
      rw [if_neg (by omega), if_neg (by omega), if_neg (by omega), if_pos rfl, List.append_assoc,
        (C129_varint (k ++ (b ++ rest)) (b ++ rest) b.length).mpr ⟨k, rfl, hs⟩]
      simp
  | @group g t n s r l l' ht hs hr ih1 ih =>
    refine parses_field ht (by omega) (group_pos hs) (fun hg => ?_) ?_ ih
    · cases g with
      | none => exact absurd rfl hg
      | some m => exact group_pos hr
    · intro f rest hf
      obtain ⟨f, rfl⟩ : ∃ f', f = f' + 1 := ⟨f - 1, by omega⟩
      unfold consumeVal
      rw [if_neg (by omega), if_neg (by omega), if_neg (by omega), if_neg (by omega), if_pos rfl, ih1 f rest (by omega)]
      rfl

/-- C129: a byte string is read as the fields `l` exactly if the grammar of the wire format derives it. -/
theorem C129_fields (b : Bytes) (l : List (Nat × WVal)) : parseFields b = some l ↔ spec.Reads none b l :=
  ⟨sound_fields _ _ _, fun h => complete h _ le_rfl⟩

/-- C129: and it derives at most one list of fields. -/
theorem C129_unambiguous {b : Bytes} {l l' : List (Nat × WVal)} (h : spec.Reads none b l) (h' : spec.Reads none b l') : l = l' := by
  rw [← C129_fields] at h h'
  rw [h] at h'; exact Option.some.inj h'

/-! ### UTF-8 -/

/-- RFC 3629, in Lean's library. -/
local notation "enc" => String.utf8EncodeChar

theorem cont_iff (lo hi : Nat) (b : UInt8) : cont lo hi b = true ↔ lo ≤ b.toNat ∧ b.toNat ≤ hi := by
  simp [cont]

theorem cont_of {lo hi x : Nat} (h : lo ≤ x ∧ x ≤ hi) (hx : x < 256) : cont lo hi (UInt8.ofNat x) = true := by
  rw [cont_iff, Json.u8_of x hx]; exact h

theorem valid_enc (c : Char) (t : Bytes) : validUTF8 (enc c ++ t) = validUTF8 t := by
  have hv := Json.char_val c
  rcases Json.enc_cases c with ⟨h, e⟩ | ⟨h, h', e⟩ | ⟨h, h', e⟩ | ⟨h, h', e⟩ <;> rw [e] <;> clear e <;>
    generalize c.val.toNat = v at * <;> simp only [List.cons_append, List.nil_append] <;> conv_lhs => unfold validUTF8
  · simp only
    rw [Json.u8_of v (by omega), if_pos h]
  · simp only
    rw [Json.u8_of _ (by omega), if_neg (by omega), if_pos (by omega), cont_of (by omega) (by omega), Bool.true_and]
  · simp only
    rw [Json.u8_of _ (by omega), if_neg (by omega), if_neg (by omega), if_pos (by omega),
      cont_of (by constructor <;> split <;> omega) (by omega), cont_of (by omega) (by omega), Bool.true_and, Bool.true_and]
  · simp only
    rw [Json.u8_of _ (by omega), if_neg (by omega), if_neg (by omega), if_neg (by omega), if_pos (by omega),
      cont_of (by constructor <;> split <;> omega) (by omega), cont_of (by omega) (by omega), cont_of (by omega) (by omega),
      Bool.true_and, Bool.true_and, Bool.true_and]

theorem valid_first : ∀ b : Bytes, b ≠ [] → validUTF8 b = true → ∃ (c : Char) (t : Bytes), b = enc c ++ t ∧ validUTF8 t = true
  | [], h, _ => absurd rfl h
  | a :: t, _, h => by
    unfold validUTF8 at h
    simp only at h
    have ha := a.toNat_lt
    by_cases h1 : a.toNat < 0x80
    · rw [if_pos h1] at h
      obtain ⟨c, hc⟩ := Json.mkChar a.toNat (by omega)
      refine ⟨c, t, ?_, h⟩
      rcases Json.enc_cases c with ⟨-, e⟩ | ⟨h2, h', e⟩ | ⟨h2, h', e⟩ | ⟨h2, h', e⟩
      · rw [e, hc]; simp
      all_goals omega
    rw [if_neg h1] at h
    by_cases h2 : 0xC2 ≤ a.toNat ∧ a.toNat ≤ 0xDF
    · rw [if_pos h2] at h
      cases t with
      | nil => simp at h
      | cons b t =>
        simp only [Bool.and_eq_true, cont_iff] at h
        obtain ⟨hb, ht⟩ := h
        obtain ⟨c, hc⟩ := Json.mkChar ((a.toNat - 0xC0) * 64 + (b.toNat - 0x80)) (by omega)
        refine ⟨c, t, ?_, ht⟩
        rcases Json.enc_cases c with ⟨h3, e⟩ | ⟨h3, h', e⟩ | ⟨h3, h', e⟩ | ⟨h3, h', e⟩
        · omega
        · rw [e, Json.u8_eq (a := a) (by omega), Json.u8_eq (a := b) (by omega)]; rfl
        all_goals omega
    rw [if_neg h2] at h
    by_cases h3 : 0xE0 ≤ a.toNat ∧ a.toNat ≤ 0xEF
    · rw [if_pos h3] at h
      match t, h with
      | [], h => simp at h
      | [_], h => simp at h
      | b :: d :: t, h =>
        simp only [Bool.and_eq_true, cont_iff] at h
        obtain ⟨⟨⟨hb1, hb2⟩, hd⟩, ht⟩ := h
        have hb : 0x80 ≤ b.toNat ∧ b.toNat ≤ 0xBF ∧ (a.toNat = 0xE0 → 0xA0 ≤ b.toNat) ∧ (a.toNat = 0xED → b.toNat ≤ 0x9F) := by
          split at hb1 <;> split at hb2 <;> omega
        clear hb1 hb2
        obtain ⟨c, hc⟩ := Json.mkChar ((a.toNat - 0xE0) * 4096 + (b.toNat - 0x80) * 64 + (d.toNat - 0x80)) (by omega)
        refine ⟨c, t, ?_, ht⟩
        rcases Json.enc_cases c with ⟨h3, e⟩ | ⟨h3, h', e⟩ | ⟨h3, h', e⟩ | ⟨h3, h', e⟩
        · omega
        · omega
        · rw [e, Json.u8_eq (a := a) (by omega), Json.u8_eq (a := b) (by omega), Json.u8_eq (a := d) (by omega)]; rfl
        · omega
    rw [if_neg h3] at h
    by_cases h4 : 0xF0 ≤ a.toNat ∧ a.toNat ≤ 0xF4
    · rw [if_pos h4] at h
      match t, h with
      | [], h => simp at h
      | [_], h => simp at h
      | [_, _], h => simp at h
      | b :: d :: g :: t, h =>
        simp only [Bool.and_eq_true, cont_iff] at h
        obtain ⟨⟨⟨⟨hb1, hb2⟩, hd⟩, hg⟩, ht⟩ := h
        have hb : 0x80 ≤ b.toNat ∧ b.toNat ≤ 0xBF ∧ (a.toNat = 0xF0 → 0x90 ≤ b.toNat) ∧ (a.toNat = 0xF4 → b.toNat ≤ 0x8F) := by
          split at hb1 <;> split at hb2 <;> omega
        clear hb1 hb2
        obtain ⟨c, hc⟩ := Json.mkChar ((a.toNat - 0xF0) * 262144 + (b.toNat - 0x80) * 4096 + (d.toNat - 0x80) * 64 +
          (g.toNat - 0x80)) (by omega)
        refine ⟨c, t, ?_, ht⟩
        rcases Json.enc_cases c with ⟨h3, e⟩ | ⟨h3, h', e⟩ | ⟨h3, h', e⟩ | ⟨h3, h', e⟩
        · omega
        · omega
        · omega
        · rw [e, Json.u8_eq (a := a) (by omega), Json.u8_eq (a := b) (by omega), Json.u8_eq (a := d) (by omega),
            Json.u8_eq (a := g) (by omega)]; rfl
    · rw [if_neg h4] at h; cases h

/-- C129: the test of strings accepts exactly the UTF-8 encodings of sequences of characters. -/
theorem C129_utf8 (b : Bytes) : validUTF8 b = true ↔ ∃ cs : List Char, b = cs.flatMap String.utf8EncodeChar := by
  constructor
  · induction hn : b.length using Nat.strong_induction_on generalizing b with
    | _ n ih =>
      intro h
      by_cases hb : b = []
      · exact ⟨[], by simp [hb]⟩
      · obtain ⟨c, t, rfl, ht⟩ := valid_first b hb h
        have hc : (enc c).length ≠ 0 := by
          intro h0; exact Json.enc_ne_nil c (List.eq_nil_of_length_eq_zero h0)
        obtain ⟨cs, hcs⟩ := ih t.length (by rw [← hn, List.length_append]; omega) t rfl ht
        exact ⟨c :: cs, by rw [List.flatMap_cons, ← hcs]⟩
  · rintro ⟨cs, rfl⟩
    induction cs with
    | nil => rfl
    | cons c cs ih => rw [List.flatMap_cons, valid_enc]; exact ih

/-! ### messages -/

namespace spec

/-- The value of the singular field `k`: that of its last occurrence, empty if there is none. -/
def Last (l : List (Nat × WVal)) (k : Nat) (b : Bytes) : Prop :=
  (∃ l1 l2, l = l1 ++ (k, .bytes b) :: l2 ∧ ∀ x, (k, .bytes x) ∉ l2) ∨ (b = [] ∧ ∀ x, (k, .bytes x) ∉ l)

/-- The values of the repeated field `k`, in order. -/
def Every (k : Nat) : List (Nat × WVal) → List Bytes → Prop
  | [], bs => bs = []
  | f :: l, bs => (∃ b bs', f = (k, .bytes b) ∧ bs = b :: bs' ∧ Every k l bs') ∨ ((∀ b, f ≠ (k, .bytes b)) ∧ Every k l bs)

/-- The fields of the seven messages (protob/*.proto). -/
def Holds (l : List (Nat × WVal)) : Content → Prop
  | .kg1 c => Last l 1 c
  | .kg2 ssid srid xx xy ax ay u pn ps pt => Last l 1 ssid ∧ Last l 3 srid ∧ Last l 4 xx ∧ Last l 5 xy ∧ Last l 6 ax ∧
      Last l 7 ay ∧ Last l 8 u ∧ Last l 9 pn ∧ Last l 10 ps ∧ Last l 11 pt
  | .kg3 s ms p => Last l 1 s ∧ Every 2 l ms ∧ Last l 3 p
  | .sg1a k => Last l 1 k
  | .sg1b e => Last l 1 e
  | .sg2 rx ry p => Last l 1 rx ∧ Last l 2 ry ∧ Last l 3 p
  | .sg3 s => Last l 1 s

/-- Full names of the seven messages. -/
def name : Content → Bytes
  | .kg1 .. => ascii "legend.tsslib.eddsacmp.keygen.KGRound1Message"
  | .kg2 .. => ascii "legend.tsslib.eddsacmp.keygen.KGRound2Message"
  | .kg3 .. => ascii "legend.tsslib.eddsacmp.keygen.KGRound3Message"
  | .sg1a .. => ascii "legend.tsslib.eddsacmp.onsign.SignRound1Message1"
  | .sg1b .. => ascii "legend.tsslib.eddsacmp.onsign.SignRound1Message2"
  | .sg2 .. => ascii "legend.tsslib.eddsacmp.onsign.SignRound2Message"
  | .sg3 .. => ascii "legend.tsslib.eddsacmp.onsign.SignRound3Message"

/-- `b` is a wire message with content `c`: an Any whose type URL is UTF-8 (in every occurrence) and ends, after a slash if it has
one, in the name of the message, and whose value is a message with the fields of `c`. -/
def Message (b : Bytes) (c : Content) : Prop :=
  ∃ l url val l2, Reads none b l ∧ (∀ x, (1, .bytes x) ∈ l → ∃ cs : List Char, x = cs.flatMap String.utf8EncodeChar) ∧
    Last l 1 url ∧ (url = name c ∨ ∃ pre, url = pre ++ 47 :: name c) ∧ Last l 2 val ∧ Reads none val l2 ∧ Holds l2 c

end spec

theorem last_iff (k : Nat) (l : List (Nat × WVal)) (b : Bytes) : getBytes k l = b ↔ spec.Last l k b := by
  rw [getBytes_eq]
  have key : ∀ l : List (Nat × WVal), (∀ b, getBytes.getBytesOpt k l = some b →
      ∃ l1 l2, l = l1 ++ (k, .bytes b) :: l2 ∧ ∀ x, (k, .bytes x) ∉ l2) ∧
      (getBytes.getBytesOpt k l = none → ∀ x, (k, WVal.bytes x) ∉ l) := by
    intro l
    induction l with
    | nil => simp [getBytes.getBytesOpt]
    | cons f t ih =>
      obtain ⟨n, v⟩ := f
      simp only [getBytes.getBytesOpt]
      cases hg : getBytes.getBytesOpt k t with
      | some q =>
        obtain ⟨l1, l2, h1, h2⟩ := ih.1 q hg
        refine ⟨?_, by simp⟩
        intro b hb
        simp only [Option.some.injEq] at hb
        subst hb
        exact ⟨(n, v) :: l1, l2, by rw [h1]; rfl, h2⟩
      | none =>
        have hno := ih.2 hg
        by_cases hn : n = k
        · subst hn
          simp only [if_true]
          cases v with
          | bytes q =>
            refine ⟨?_, by simp⟩
            intro b hb
            simp only [Option.some.injEq] at hb
            subst hb
            exact ⟨[], t, rfl, hno⟩
          | _ => refine ⟨by simp, fun _ x hx => ?_⟩; simp at hx; exact hno x hx
        · simp only [if_neg hn]
          refine ⟨by simp, fun _ x hx => ?_⟩
          rcases List.mem_cons.mp hx with h | h
          · cases h; exact hn rfl
          · exact hno x h
  constructor
  · rintro rfl
    cases hg : getBytes.getBytesOpt k l with
    | some q => exact Or.inl ((key l).1 q hg)
    | none => exact Or.inr ⟨rfl, (key l).2 hg⟩
  · rintro (⟨l1, l2, rfl, h⟩ | ⟨rfl, h⟩)
    · have h2 : getBytes.getBytesOpt k l2 = none := by
        cases hg : getBytes.getBytesOpt k l2 with
        | none => rfl
        | some q =>
          obtain ⟨m1, m2, h1, -⟩ := (key l2).1 q hg
          exact absurd (by rw [h1]; simp) (h q)
      rw [getBytesOpt_append]
      simp [getBytes.getBytesOpt, h2]
    · cases hg : getBytes.getBytesOpt k l with
      | none => rfl
      | some q =>
        obtain ⟨m1, m2, h1, -⟩ := (key l).1 q hg
        exact absurd (by rw [h1]; simp) (h q)

theorem every_iff (k : Nat) (l : List (Nat × WVal)) (bs : List Bytes) : getRepeated k l = bs ↔ spec.Every k l bs := by
  induction l generalizing bs with
  | nil => simp [getRepeated, spec.Every, eq_comm]
  | cons f t ih =>
    obtain ⟨n, v⟩ := f
    unfold spec.Every
    have h : getRepeated k ((n, v) :: t) =
        ((if n = k then (match v with | .bytes b => some b | _ => none) else none) : Option Bytes).toList ++ getRepeated k t := by
      unfold getRepeated
      by_cases hn : n = k
      · cases v <;> simp [hn]
      · simp [hn]
    rw [h]
    by_cases hn : n = k
    · subst hn
      cases v with
      | bytes b =>
        simp only [if_true, Option.toList_some, List.singleton_append]
        constructor
        · rintro rfl; exact Or.inl ⟨b, _, rfl, rfl, (ih _).mp rfl⟩
        · rintro (⟨b', bs', h1, rfl, h3⟩ | ⟨h1, -⟩)
          · cases h1; rw [(ih _).mpr h3]
          · exact absurd rfl (h1 b)
      | _ => simp [ih]
    · simp [hn, ih]

theorem afterSlash_noSep {b : Bytes} (h : (47 : UInt8) ∉ b) : afterSlash b = b := by
  unfold afterSlash
  rw [split_noSep 47 b h]; rfl

theorem afterSlash_append {a r : Bytes} (h : (47 : UInt8) ∉ a) : afterSlash (a ++ 47 :: r) = afterSlash r := by
  unfold afterSlash
  rw [split_append 47 a r h]
  cases hs : split 47 r with
  | nil => exact absurd hs (split_ne_nil 47 r)
  | cons q t => simp [List.getLast_cons_cons]

theorem afterSlash_iff {b n : Bytes} (hn : (47 : UInt8) ∉ n) : afterSlash b = n ↔ (b = n ∨ ∃ pre, b = pre ++ 47 :: n) := by
  induction hl : b.length using Nat.strong_induction_on generalizing b with
  | _ m ih =>
    by_cases hb : (47 : UInt8) ∈ b
    · obtain ⟨a, r, rfl, ha⟩ := List.eq_append_cons_of_mem hb
      rw [afterSlash_append ha, ih r.length (by rw [← hl]; simp; omega) rfl]
      constructor
      · rintro (rfl | ⟨pre, rfl⟩)
        · exact Or.inr ⟨a, rfl⟩
        · exact Or.inr ⟨a ++ 47 :: pre, by simp⟩
      · rintro (rfl | ⟨pre, h⟩)
        · exact absurd hb hn
        · rcases List.append_eq_append_iff.mp h with ⟨c, h1, h2⟩ | ⟨c, h1, h2⟩
          · cases c with
            | nil => simp only [List.nil_append, List.cons.injEq, true_and] at h2; exact Or.inl h2
            | cons y c =>
              simp only [List.cons_append, List.cons.injEq] at h2
              exact Or.inr ⟨c, h2.2⟩
          · cases c with
            | nil => simp only [List.nil_append, List.cons.injEq, true_and] at h2; exact Or.inl h2.symm
            | cons y c =>
              simp only [List.cons_append, List.cons.injEq] at h2
              rw [h1, ← h2.1] at ha
              exact absurd (by simp) ha
    · rw [afterSlash_noSep hb]
      constructor
      · exact Or.inl
      · rintro (h | ⟨pre, rfl⟩)
        · exact h
        · exact absurd (by simp) hb

theorem name_eq (c : Content) : spec.name c = c.kind.fullName := by cases c <;> rfl

theorem name_noSlash (k : Kind) : (47 : UInt8) ∉ k.fullName := by cases k <;> decide +kernel

theorem kind_iff (n : Bytes) (k : Kind) : kindOfName n = some k ↔ n = k.fullName := by
  unfold kindOfName
  constructor
  · intro h
    have := List.find?_some h
    simpa using (of_decide_eq_true this).symm
  · rintro rfl
    cases k <;> decide +kernel

theorem holds_iff (k : Kind) (l : List (Nat × WVal)) (c : Content) : ofFields k l = c ↔ k = c.kind ∧ spec.Holds l c := by
  cases k <;> cases c <;> simp [ofFields, Content.kind, spec.Holds, last_iff, every_iff]

/-- C129: `ParseWireMsg` returns the content `c` exactly for the byte strings that are a wire message of it. -/
theorem C129_message (b : Bytes) (c : Content) : parseWireMsg b = some c ↔ spec.Message b c := by
  unfold parseWireMsg spec.Message
  have hstr : ∀ l : List (Nat × WVal), stringsOk 1 l = true ↔
      ∀ x, (1, WVal.bytes x) ∈ l → ∃ cs : List Char, x = cs.flatMap String.utf8EncodeChar := by
    intro l
    unfold stringsOk getRepeated
    rw [List.all_eq_true]
    constructor
    · intro h x hx
      rw [← C129_utf8]
      exact h x (List.mem_filterMap.mpr ⟨_, hx, by simp⟩)
    · intro h x hx
      obtain ⟨⟨n, v⟩, h1, h2⟩ := List.mem_filterMap.mp hx
      simp only at h2
      split at h2
      · next hn =>
        subst hn
        cases v with
        | bytes q => simp only [Option.some.injEq] at h2; subst h2; exact (C129_utf8 _).mpr (h _ h1)
        | _ => simp at h2
      · cases h2
  constructor
  · intro h
    cases hl : parseFields b with
    | none => simp [hl] at h
    | some l =>
      simp only [hl] at h
      cases hs : stringsOk 1 l with
      | false => simp [hs] at h
      | true =>
        simp only [hs, Bool.not_true, Bool.false_eq_true, if_false] at h
        by_cases hu : getBytes 1 l = []
        · rw [if_pos hu] at h; cases h
        · rw [if_neg hu] at h
          cases hk : kindOfName (afterSlash (getBytes 1 l)) with
          | none => simp [hk] at h
          | some k =>
            simp only [hk] at h
            cases hl2 : parseFields (getBytes 2 l) with
            | none => simp [hl2] at h
            | some l2 =>
              simp only [hl2, Option.some.injEq] at h
              obtain ⟨rfl, h2⟩ := (holds_iff _ _ _).mp h
              refine ⟨l, _, _, l2, (C129_fields _ _).mp hl, (hstr l).mp hs, (last_iff _ _ _).mp rfl, ?_,
                (last_iff _ _ _).mp rfl, (C129_fields _ _).mp hl2, h2⟩
              rw [name_eq, ← afterSlash_iff (name_noSlash _)]
              exact (kind_iff _ _).mp hk
  · rintro ⟨l, url, val, l2, h1, h2, h3, h4, h5, h6, h7⟩
    rw [name_eq, ← afterSlash_iff (name_noSlash _)] at h4
    rw [(C129_fields _ _).mpr h1]
    simp only [(hstr l).mpr h2, Bool.not_true, Bool.false_eq_true, if_false, (last_iff _ _ _).mpr h3, (last_iff _ _ _).mpr h5]
    have hu : url ≠ [] := by
      rintro rfl
      have : ∀ k : Kind, k.fullName ≠ [] := by intro k; cases k <;> decide +kernel
      exact this c.kind (by rw [← h4]; rfl)
    rw [if_neg hu, (kind_iff _ _).mpr h4]
    simp only [(C129_fields _ _).mpr h6]
    rw [(holds_iff _ _ _).mpr ⟨rfl, h7⟩]

/-- C129: so a byte string is a wire message of at most one content. -/
theorem C129_one_content {b : Bytes} {c c' : Content} (h : spec.Message b c) (h' : spec.Message b c') : c = c' := by
  rw [← C129_message] at h h'
  rw [h] at h'; exact Option.some.inj h'

/-- Non-vacuity: a message with a superfluous zero group in a length, the value before the type URL, an unknown field, a group and
an earlier value that loses; the same with the URL cut; a URL that is not UTF-8. -/
theorem C129_case :
    spec.Message ([18, 0, 18, 0x83, 0, 10, 1, 7, 27, 8, 1, 28, 10, 48, 47] ++ ascii "legend.tsslib.eddsacmp.onsign.SignRound3Message")
      (.sg3 [7]) ∧
    (∀ c, ¬ spec.Message ([18, 0, 18, 0x83, 0, 10, 1, 7, 10, 46] ++ ascii "legend.tsslib.eddsacmp.onsign.SignRound3Messag") c) ∧
    (∀ c, ¬ spec.Message ([10, 49, 255, 47] ++ ascii "legend.tsslib.eddsacmp.onsign.SignRound3Message") c) := by
  have h1 : parseWireMsg ([18, 0, 18, 0x83, 0, 10, 1, 7, 27, 8, 1, 28, 10, 48, 47] ++
      ascii "legend.tsslib.eddsacmp.onsign.SignRound3Message") = some (.sg3 [7]) := by decide +kernel
  have h2 : parseWireMsg ([18, 0, 18, 0x83, 0, 10, 1, 7, 10, 46] ++ ascii "legend.tsslib.eddsacmp.onsign.SignRound3Messag") =
      none := by decide +kernel
  have h3 : parseWireMsg ([10, 49, 255, 47] ++ ascii "legend.tsslib.eddsacmp.onsign.SignRound3Message") = none := by
    decide +kernel
  refine ⟨(C129_message _ _).mp h1, fun c h => ?_, fun c h => ?_⟩
  · have := (C129_message _ _).mpr h
    rw [h2] at this; cases this
  · have := (C129_message _ _).mpr h
    rw [h3] at this; cases this

end Tss.Wire
