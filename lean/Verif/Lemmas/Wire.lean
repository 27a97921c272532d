import Verif.Model.Wire
import Verif.Lemmas.Text
/-! Lemmas about the wire format of `Verif/Model/Wire.lean`. -/
namespace Tss.Wire
open Tss Text

theorem consumeVarintAux_enc (f i n acc : Nat) (r : Bytes) (hf : i + f = 10) (hn : n * 2 ^ (7 * i) < 2 ^ 64)
    (hf0 : 0 < f) : consumeVarintAux i acc (encVarintAux f n ++ r) = some (acc + n * 2 ^ (7 * i), r) := by
  induction f generalizing i n acc with
  | zero => omega
  | succ f ih =>
    simp only [encVarintAux]
    split
    · next h =>
      have ht : (UInt8.ofNat n).toNat = n := u8_ofNat_toNat (by omega)
      simp only [List.cons_append, List.nil_append, consumeVarintAux, ht]
      split
      · next hi =>
        subst hi
        have : n < 2 := by
          by_contra hc
          have : 2 * 2 ^ 63 ≤ n * 2 ^ 63 := Nat.mul_le_mul_right _ (by omega)
          norm_num at hn this; omega
        simp [this]
      · simp
    · next h =>
      have ht : (UInt8.ofNat (n % 128 + 128)).toNat = n % 128 + 128 := u8_ofNat_toNat (by omega)
      have hi : i ≠ 9 := by
        rintro rfl
        have : 128 * 2 ^ 63 ≤ n * 2 ^ 63 := Nat.mul_le_mul_right _ (by omega)
        norm_num at hn this; omega
      simp only [List.cons_append, consumeVarintAux, ht, hi, if_false]
      rw [if_neg (by omega), ih (i + 1) _ _ (by omega) _ (by omega)]
      · congr 2
        have h7 : 7 * (i + 1) = 7 * i + 7 := by ring
        have e := Nat.div_add_mod n 128
        rw [Nat.add_sub_cancel, h7, pow_add]
        have : n * 2 ^ (7 * i) = (128 * (n / 128) + n % 128) * 2 ^ (7 * i) := by rw [e]
        rw [this]; ring
      · have h7 : 7 * (i + 1) = 7 * i + 7 := by ring
        rw [h7, pow_add]
        calc n / 128 * (2 ^ (7 * i) * 2 ^ 7) = (n / 128 * 128) * 2 ^ (7 * i) := by ring
          _ ≤ n * 2 ^ (7 * i) := Nat.mul_le_mul_right _ (Nat.div_mul_le_self n 128)
          _ < 2 ^ 64 := hn

theorem consumeVarint_enc (n : Nat) (r : Bytes) (h : n < 2 ^ 64) :
    consumeVarint (encVarint n ++ r) = some (n, r) := by
  have := consumeVarintAux_enc 10 0 n 0 r rfl (by simpa using h) (by norm_num)
  simpa [consumeVarint, encVarint] using this

theorem encVarint_ne_nil (n : Nat) : encVarint n ≠ [] := by
  simp only [encVarint, encVarintAux]; split <;> simp

theorem consumeTag_enc (k : Nat) (r : Bytes) (h1 : 1 ≤ k) (h2 : k < 2 ^ 29) :
    consumeTag (encVarint (k * 8 + 2) ++ r) = some (k, 2, r) := by
  unfold consumeTag
  rw [consumeVarint_enc _ _ (by norm_num at *; omega)]
  have e1 : (k * 8 + 2) / 8 = k := by omega
  have e2 : (k * 8 + 2) % 8 = 2 := by omega
  simp only [e1, e2, h1, h2, and_self, if_true]

theorem consumeVal_enc (f num : Nat) (b r : Bytes) (h : b.length < 2 ^ 64) :
    consumeVal (f + 1) num 2 (encVarint b.length ++ (b ++ r)) = some (.bytes b, r) := by
  simp only [consumeVal, consumeVarint_enc _ _ h]
  simp

/-- A field list as the encoder writes it. -/
def encFields (l : List (Nat × Bytes)) : Bytes := l.flatMap fun p => encFieldRep p.1 p.2

/-- Legal field numbers and lengths. -/
def FieldsOk (l : List (Nat × Bytes)) : Prop :=
  ∀ p ∈ l, 1 ≤ p.1 ∧ p.1 < 2 ^ 29 ∧ p.2.length < 2 ^ 64

theorem encFieldRep_length_pos (k : Nat) (b : Bytes) : 1 ≤ (encFieldRep k b).length := by
  have := List.length_pos_iff.mpr (encVarint_ne_nil (k * 8 + 2))
  simp [encFieldRep]; omega

theorem parseFieldsAux_enc (l : List (Nat × Bytes)) (h : FieldsOk l) (f : Nat) (hf : (encFields l).length ≤ f) :
    parseFieldsAux f (encFields l) = some (l.map fun p => (p.1, WVal.bytes p.2)) := by
  induction l generalizing f with
  | nil => cases f <;> rfl
  | cons p t ih =>
    obtain ⟨h1, h2, h3⟩ := h p (by simp)
    have e : encFields (p :: t) = encFieldRep p.1 p.2 ++ encFields t := rfl
    have hpos := encFieldRep_length_pos p.1 p.2
    rw [e] at hf ⊢
    rw [List.length_append] at hf
    cases f with
    | zero => omega
    | succ f =>
      have e2 : encFieldRep p.1 p.2 ++ encFields t =
          encVarint (p.1 * 8 + 2) ++ (encVarint p.2.length ++ (p.2 ++ encFields t)) := by
        simp [encFieldRep]
      have hne : encFieldRep p.1 p.2 ++ encFields t ≠ [] := by
        intro hc
        have := congrArg List.length hc
        rw [List.length_append, List.length_nil] at this; omega
      have key : ∀ b : Bytes, b ≠ [] → parseFieldsAux (f + 1) b = (match consumeTag b with
          | none => none
          | some (n, t, r) =>
            match consumeVal (f + 1) n t r with
            | none => none
            | some (v, r') => (parseFieldsAux f r').map fun l => (n, v) :: l) := by
        intro b hb
        cases b with
        | nil => exact absurd rfl hb
        | cons x t => rfl
      rw [key _ hne, e2, consumeTag_enc _ _ h1 h2]
      simp only [consumeVal_enc _ _ _ _ h3]
      rw [ih (fun q hq => h q (by simp [hq])) f (by omega)]
      rfl

theorem parseFields_enc (l : List (Nat × Bytes)) (h : FieldsOk l) :
    parseFields (encFields l) = some (l.map fun p => (p.1, WVal.bytes p.2)) :=
  parseFieldsAux_enc l h _ le_rfl

/-- A singular field as a field list. -/
def sing (k : Nat) (b : Bytes) : List (Nat × Bytes) := if b = [] then [] else [(k, b)]

theorem encField_eq (k : Nat) (b : Bytes) : encField k b = encFields (sing k b) := by
  unfold encField sing encFields
  split <;> simp [encFieldRep]

theorem encFields_append (a b : List (Nat × Bytes)) : encFields (a ++ b) = encFields a ++ encFields b := by
  simp [encFields]

theorem encFields_map (k : Nat) (l : List Bytes) :
    encFields (l.map fun b => (k, b)) = l.flatMap (encFieldRep k) := by
  induction l with
  | nil => rfl
  | cons a t ih =>
    simp only [List.map_cons, List.flatMap_cons, ← ih]
    rfl

/-- wrap decoded -/
abbrev wv (l : List (Nat × Bytes)) : List (Nat × WVal) := l.map fun p => (p.1, WVal.bytes p.2)

theorem getBytesOpt_append (k : Nat) (a b : List (Nat × WVal)) :
    getBytes.getBytesOpt k (a ++ b) = (getBytes.getBytesOpt k b).or (getBytes.getBytesOpt k a) := by
  induction a with
  | nil => simp [getBytes.getBytesOpt]
  | cons p t ih =>
    obtain ⟨n, v⟩ := p
    simp only [List.cons_append, getBytes.getBytesOpt, ih]
    cases getBytes.getBytesOpt k b <;> simp

theorem getBytes_eq (k : Nat) (l : List (Nat × WVal)) : getBytes k l = (getBytes.getBytesOpt k l).getD [] := by
  cases l with
  | nil => rfl
  | cons p t =>
    obtain ⟨n, v⟩ := p
    simp only [getBytes, getBytes.getBytesOpt]
    cases getBytes.getBytesOpt k t with
    | some b => rfl
    | none =>
      simp only
      split
      · cases v <;> rfl
      · rfl

theorem getBytesOpt_sing (k n : Nat) (b : Bytes) :
    getBytes.getBytesOpt k (wv (sing n b)) = if n = k ∧ b ≠ [] then some b else none := by
  unfold sing
  split
  · next h => simp [h, getBytes.getBytesOpt]
  · next h =>
    simp only [List.map_cons, List.map_nil, getBytes.getBytesOpt, h, ne_eq, not_false_eq_true, and_true]

theorem getBytesOpt_rep_ne (k n : Nat) (l : List Bytes) (h : n ≠ k) :
    getBytes.getBytesOpt k (wv (l.map fun b => (n, b))) = none := by
  induction l with
  | nil => rfl
  | cons a t ih =>
    simp only [List.map_cons, getBytes.getBytesOpt]
    rw [show (List.map (fun p => (p.1, WVal.bytes p.2)) (List.map (fun b => (n, b)) t)) = wv (t.map fun b => (n, b)) from rfl, ih]
    simp [h]

theorem getRepeated_append (k : Nat) (a b : List (Nat × WVal)) :
    getRepeated k (a ++ b) = getRepeated k a ++ getRepeated k b := by
  simp [getRepeated]

theorem getRepeated_sing_ne (k n : Nat) (b : Bytes) (h : n ≠ k) : getRepeated k (wv (sing n b)) = [] := by
  unfold sing
  split <;> simp [getRepeated, h]

theorem getRepeated_rep (k : Nat) (l : List Bytes) : getRepeated k (wv (l.map fun b => (k, b))) = l := by
  induction l with
  | nil => rfl
  | cons a t ih =>
    simp only [getRepeated, List.map_cons, List.filterMap_cons, if_true]
    congr 1

theorem getRepeated_sing_eq (k : Nat) (b : Bytes) :
    getRepeated k (wv (sing k b)) = if b = [] then [] else [b] := by
  unfold sing
  split <;> simp [getRepeated]

/-- The fields a content is marshalled to. -/
def Content.fields : Content → List (Nat × Bytes)
  | .kg1 c => sing 1 c
  | .kg2 ssid srid xx xy ax ay u pn ps pt =>
    sing 1 ssid ++ sing 3 srid ++ sing 4 xx ++ sing 5 xy ++ sing 6 ax ++ sing 7 ay ++
      sing 8 u ++ sing 9 pn ++ sing 10 ps ++ sing 11 pt
  | .kg3 s ms p => sing 1 s ++ ms.map (fun b => (2, b)) ++ sing 3 p
  | .sg1a k => sing 1 k
  | .sg1b e => sing 1 e
  | .sg2 rx ry lp => sing 1 rx ++ sing 2 ry ++ sing 3 lp
  | .sg3 s => sing 1 s

theorem Content.marshal_eq (c : Content) : c.marshal = encFields c.fields := by
  cases c <;> simp only [Content.marshal, Content.fields, encFields_append, encField_eq, encFields_map]

/-- All byte strings inside a content. -/
def Content.parts : Content → List Bytes
  | .kg1 c => [c]
  | .kg2 ssid srid xx xy ax ay u pn ps pt => [ssid, srid, xx, xy, ax, ay, u, pn, ps, pt]
  | .kg3 s ms p => s :: p :: ms
  | .sg1a k => [k]
  | .sg1b e => [e]
  | .sg2 rx ry lp => [rx, ry, lp]
  | .sg3 s => [s]

theorem FieldsOk_append {a b : List (Nat × Bytes)} (ha : FieldsOk a) (hb : FieldsOk b) : FieldsOk (a ++ b) := by
  intro p hp
  rcases List.mem_append.mp hp with h | h
  · exact ha p h
  · exact hb p h

theorem FieldsOk_sing {k : Nat} {b : Bytes} (h1 : 1 ≤ k) (h2 : k < 2 ^ 29) (h : b.length < 2 ^ 64) :
    FieldsOk (sing k b) := by
  intro p hp
  unfold sing at hp
  split at hp
  · simp at hp
  · simp only [List.mem_singleton] at hp; subst hp; exact ⟨h1, h2, h⟩

theorem fieldsOk (c : Content) (h : ∀ b ∈ c.parts, b.length < 2 ^ 64) : FieldsOk c.fields := by
  cases c <;> simp only [Content.parts, List.mem_cons, List.not_mem_nil, or_false, forall_eq_or_imp, forall_eq] at h <;>
    simp only [Content.fields]
  case kg3 s ms p =>
    obtain ⟨h1, h2, h3⟩ := h
    refine FieldsOk_append (FieldsOk_append (FieldsOk_sing (by norm_num) (by norm_num) h1) ?_)
      (FieldsOk_sing (by norm_num) (by norm_num) h2)
    intro q hq
    obtain ⟨b, hb, rfl⟩ := List.mem_map.mp hq
    exact ⟨by norm_num, by norm_num, h3 b hb⟩
  all_goals
    repeat' apply FieldsOk_append
    all_goals (apply FieldsOk_sing (by norm_num) (by norm_num); simp only [h])

theorem ofFields_fields (c : Content) : ofFields c.kind (wv c.fields) = c := by
  have ite_b : ∀ b : Bytes, (if b ≠ [] then some b else none).getD [] = b := by
    intro b; split <;> simp_all
  have ite_c : ∀ b : Bytes, (if b = [] then none else some b).getD [] = b := by
    intro b; split <;> simp_all
  cases c with
  | kg3 s ms p =>
    simp only [Content.kind, ofFields, Content.fields, List.map_append, getBytes_eq, getBytesOpt_append,
      getRepeated_append]
    simp only [getBytesOpt_sing, getBytesOpt_rep_ne _ 2 ms (show (2:Nat) ≠ 1 by decide),
      getBytesOpt_rep_ne _ 2 ms (show (2:Nat) ≠ 3 by decide), getRepeated_rep,
      getRepeated_sing_ne 2 1 s (by decide), getRepeated_sing_ne 2 3 p (by decide)]
    simp [ite_c]
  | _ =>
    simp only [Content.kind, ofFields, Content.fields, List.map_append, getBytes_eq, getBytesOpt_append]
    simp only [getBytesOpt_sing]
    simp [ite_c]

theorem afterSlash_url (k : Kind) : afterSlash (typeUrl k) = k.fullName := by
  cases k <;> decide +kernel

theorem kindOfName_fullName (k : Kind) : kindOfName k.fullName = some k := by
  cases k <;> decide +kernel

theorem typeUrl_facts (k : Kind) : validUTF8 (typeUrl k) = true ∧ typeUrl k ≠ [] ∧ (typeUrl k).length < 2 ^ 64 := by
  cases k <;> decide +kernel

/-- Parsing the wire bytes of a content gives the content back. -/
theorem parse_wireBytes (c : Content) (h : ∀ b ∈ c.parts, b.length < 2 ^ 64) (hm : c.marshal.length < 2 ^ 64) :
    parseWireMsg (wireBytes c) = some c := by
  obtain ⟨u1, u2, u3⟩ := typeUrl_facts c.kind
  have e : wireBytes c = encFields (sing 1 (typeUrl c.kind) ++ sing 2 c.marshal) := by
    rw [encFields_append, ← encField_eq, ← encField_eq]; rfl
  have ok : FieldsOk (sing 1 (typeUrl c.kind) ++ sing 2 c.marshal) :=
    FieldsOk_append (FieldsOk_sing (by norm_num) (by norm_num) u3) (FieldsOk_sing (by norm_num) (by norm_num) hm)
  unfold parseWireMsg
  rw [e, parseFields_enc _ ok]
  have g1 : getBytes 1 (wv (sing 1 (typeUrl c.kind) ++ sing 2 c.marshal)) = typeUrl c.kind := by
    simp only [List.map_append, getBytes_eq, getBytesOpt_append]
    rw [getBytesOpt_sing, getBytesOpt_sing]; simp [u2]
  have g2 : getBytes 2 (wv (sing 1 (typeUrl c.kind) ++ sing 2 c.marshal)) = c.marshal := by
    simp only [List.map_append, getBytes_eq, getBytesOpt_append]
    rw [getBytesOpt_sing, getBytesOpt_sing]
    by_cases hc : c.marshal = [] <;> simp [hc]
  have g3 : stringsOk 1 (wv (sing 1 (typeUrl c.kind) ++ sing 2 c.marshal)) = true := by
    unfold stringsOk
    have : wv (sing 1 (typeUrl c.kind) ++ sing 2 c.marshal) = wv (sing 1 (typeUrl c.kind)) ++ wv (sing 2 c.marshal) :=
      List.map_append
    rw [this, getRepeated_append, getRepeated_sing_eq, getRepeated_sing_ne 1 2 _ (by decide)]
    simp [u2, u1]
  have key : ∀ X : List (Nat × WVal), getBytes 1 X = typeUrl c.kind → getBytes 2 X = c.marshal → stringsOk 1 X = true →
      (if !stringsOk 1 X then none else
        if getBytes 1 X = [] then none
        else match kindOfName (afterSlash (getBytes 1 X)) with
        | none => none
        | some k =>
          match parseFields (getBytes 2 X) with
          | none => none
          | some l2 => some (ofFields k l2)) = some c := by
    intro X g1 g2 g3
    simp only [g1, g2, g3, u2, if_false, afterSlash_url, kindOfName_fullName, c.marshal_eq,
      parseFields_enc _ (fieldsOk c h), ofFields_fields, Bool.not_true, Bool.false_eq_true]
  exact key _ g1 g2 g3

theorem encVarintAux_length (f n : Nat) : (encVarintAux f n).length ≤ f := by
  induction f generalizing n with
  | zero => simp [encVarintAux]
  | succ f ih =>
    simp only [encVarintAux]
    split
    · simp
    · simpa using ih _

theorem encFieldRep_length_le (k : Nat) (b : Bytes) : (encFieldRep k b).length ≤ 20 + b.length := by
  have h1 := encVarintAux_length 10 (k * 8 + 2)
  have h2 := encVarintAux_length 10 b.length
  simp only [encFieldRep, encVarint, List.length_append]
  omega

/-- Length of an encoded field list. -/
theorem encFields_length_le (l : List (Nat × Bytes)) :
    (encFields l).length ≤ (l.map fun p => 20 + p.2.length).sum := by
  induction l with
  | nil => simp [encFields]
  | cons p t ih =>
    have := encFieldRep_length_le p.1 p.2
    have e : encFields (p :: t) = encFieldRep p.1 p.2 ++ encFields t := rfl
    rw [e, List.length_append, List.map_cons, List.sum_cons]
    omega

end Tss.Wire
