import Verif.Model.Json
import Verif.Model.RangeProofs
import Verif.Lemmas.Text
/-! What `json.Marshal` writes is read back. -/
namespace Tss.Json
open Tss Text RangeProofs

/-! ### Strings -/

theorem u8_cases (P : UInt8 → Prop) (h : ∀ n : Fin 256, P (UInt8.ofNat n)) (b : UInt8) : P b := by
  have := h ⟨b.toNat, b.toNat_lt⟩
  simpa using this

theorem esc_cases (b : UInt8) (hb : b < 128) :
    (esc b = [b] ∧ ¬ b < 32 ∧ b ≠ 34 ∧ b ≠ 92) ∨
    (∃ e, esc b = [92, e] ∧ e ≠ 117 ∧ unesc e = some b) ∨
    esc b = [92, 117, 48, 48, hexDigit (b.toNat / 16), hexDigit (b.toNat % 16)] := by
  unfold esc
  split
  · next h => subst h; exact .inr (.inl ⟨34, rfl, by decide, by decide⟩)
  split
  · next h => subst h; exact .inr (.inl ⟨92, rfl, by decide, by decide⟩)
  split
  · next h => subst h; exact .inr (.inl ⟨110, rfl, by decide, by decide⟩)
  split
  · next h => subst h; exact .inr (.inl ⟨114, rfl, by decide, by decide⟩)
  split
  · next h => subst h; exact .inr (.inl ⟨116, rfl, by decide, by decide⟩)
  split
  · exact .inr (.inr rfl)
  · next h1 h2 h3 h4 h5 h6 =>
    push Not at h6
    exact .inl ⟨rfl, by simpa using h6.1, h1, h2⟩

theorem runeLen_ascii {b : UInt8} (hb : b < 128) (t : Bytes) : runeLen (b :: t) = 1 := by
  have : b.toNat < 128 := by simpa using UInt8.lt_iff_toNat_lt.mp hb
  unfold runeLen
  simp [this]

theorem getu4_byte (b : UInt8) (hb : b < 128) (t : Bytes) :
    getu4 (48 :: 48 :: hexDigit (b.toNat / 16) :: hexDigit (b.toNat % 16) :: t) = some (b.toNat, t) := by
  have : b.toNat < 128 := by simpa using UInt8.lt_iff_toNat_lt.mp hb
  unfold getu4
  simp only
  rw [hexVal_digit _ (by omega), hexVal_digit _ (by omega), show hexVal 48 = some 0 by decide]
  simp only
  congr 2
  omega

theorem uEscape_byte (b : UInt8) (hb : b < 128) (t : Bytes) : uEscape b.toNat t = ([b], t) := by
  have : b.toNat < 128 := by simpa using UInt8.lt_iff_toNat_lt.mp hb
  unfold uEscape encodeRune
  rw [if_neg (by omega), if_pos (by omega)]
  simp

theorem strBody_esc (b : UInt8) (hb : b < 128) (f : Nat) (t s r : Bytes) (h : strBody f t = some (s, r)) :
    strBody (f + 1) (esc b ++ t) = some (b :: s, r) := by
  rcases esc_cases b hb with ⟨e, h1, h2, h3⟩ | ⟨c, e, h1, h2⟩ | e
  · rw [e]
    show strBody (f + 1) (b :: t) = _
    unfold strBody
    rw [if_neg h2, if_neg h1, if_neg h3, runeLen_ascii hb, if_neg (by decide)]
    simp [h]
  · rw [e]
    show strBody (f + 1) (92 :: c :: t) = _
    unfold strBody
    rw [if_neg (by decide), if_neg (by decide), if_pos rfl]
    simp only
    rw [if_neg h1, h2]
    simp [h]
  · rw [e]
    show strBody (f + 1) (92 :: 117 :: 48 :: 48 :: hexDigit (b.toNat / 16) :: hexDigit (b.toNat % 16) :: t) = _
    unfold strBody
    rw [if_neg (by decide), if_neg (by decide), if_pos rfl]
    simp only
    rw [if_pos trivial, getu4_byte b hb]
    simp only
    rw [uEscape_byte b hb]
    simp [h]

theorem strBody_quote : ∀ (s : Bytes), (∀ c ∈ s, c < 128) → ∀ (f : Nat) (rest : Bytes), s.length < f →
    strBody f (s.flatMap esc ++ 34 :: rest) = some (s, rest)
  | [], _, f, rest, hf => by
    obtain ⟨g, rfl⟩ : ∃ g, f = g + 1 := ⟨f - 1, by simp at hf; omega⟩
    simp [strBody]
  | b :: s, h, f, rest, hf => by
    obtain ⟨g, rfl⟩ : ∃ g, f = g + 1 := ⟨f - 1, by simp at hf; omega⟩
    have ih := strBody_quote s (fun c hc => h c (by simp [hc])) g rest (by simpa using hf)
    rw [List.flatMap_cons, List.append_assoc]
    exact strBody_esc b (h b (by simp)) g _ _ _ ih

theorem esc_length (b : UInt8) : 1 ≤ (esc b).length := by
  unfold esc; split_ifs <;> simp

theorem flatMap_esc_length (s : Bytes) : s.length ≤ (s.flatMap esc).length := by
  induction s with
  | nil => simp
  | cons b s ih => rw [List.flatMap_cons, List.length_append, List.length_cons]; have := esc_length b; omega

/-! ### Numbers -/

/-- what may follow a value -/
def Stop : Bytes → Prop
  | [] => True
  | c :: _ => c = 44 ∨ c = 93 ∨ c = 125

theorem Stop.cases {r : Bytes} (h : Stop r) : r = [] ∨ ∃ c t, r = c :: t ∧ (c = 44 ∨ c = 93 ∨ c = 125) := by
  cases r with
  | nil => exact .inl rfl
  | cons c t => exact .inr ⟨c, t, rfl, h⟩

theorem Stop.ws {r : Bytes} (h : Stop r) : ws r = r := by
  rcases h.cases with rfl | ⟨c, t, rfl, rfl | rfl | rfl⟩ <;> rfl

theorem isDigit_of {b : UInt8} (h : 48 ≤ b.toNat ∧ b.toNat ≤ 57) : isDigit b = true := by
  unfold isDigit; simp [h.1, h.2]

theorem takeWhile_digits (l r : Bytes) (hl : ∀ b ∈ l, isDigit b = true) (hr : Stop r) :
    (l ++ r).takeWhile isDigit = l ∧ (l ++ r).dropWhile isDigit = r := by
  induction l with
  | nil => rcases hr.cases with rfl | ⟨c, t, rfl, rfl | rfl | rfl⟩ <;> exact ⟨rfl, rfl⟩
  | cons b l ih =>
    have hb := hl b (by simp)
    obtain ⟨h1, h2⟩ := ih fun x hx => hl x (by simp [hx])
    rw [List.cons_append, List.takeWhile_cons, List.dropWhile_cons, hb]
    simp [h1, h2]

theorem decAux_head : ∀ (f n : Nat), 0 < n → n ≤ f → ∃ c t, decAux f n = c :: t ∧ c ≠ 48
  | 0, n, h0, h => by omega
  | f + 1, n, h0, h => by
    unfold decAux
    by_cases hn : n < 10
    · rw [if_pos hn]
      refine ⟨_, [], rfl, ?_⟩
      intro hc
      have := congrArg UInt8.toNat hc
      rw [u8_ofNat_toNat (by omega)] at this
      simp at this; omega
    · rw [if_neg hn]
      obtain ⟨c, t, e, hc⟩ := decAux_head f (n / 10) (by omega) (by omega)
      exact ⟨c, t ++ [UInt8.ofNat (48 + n % 10)], by rw [e]; rfl, hc⟩

theorem intPart_itoa (n : Nat) (r : Bytes) (hr : Stop r) : intPart (itoa n ++ r) = some (itoa n, r) := by
  by_cases h0 : n = 0
  · subst h0
    rw [show itoa 0 = [48] by decide]
    rfl
  · have hd := itoa_digits n
    obtain ⟨c, t, e, hc⟩ := decAux_head n n (by omega) (by omega)
    have e' : itoa n = c :: t := e
    rw [e'] at hd ⊢
    show intPart (c :: (t ++ r)) = _
    unfold intPart
    simp only
    rw [if_neg hc, if_pos (isDigit_of (hd c (by simp)))]
    obtain ⟨h1, h2⟩ := takeWhile_digits t r (fun b hb => isDigit_of (hd b (by simp [hb]))) hr
    rw [h1, h2]

theorem fracPart_stop {r : Bytes} (hr : Stop r) : fracPart r = some ([], r) := by
  rcases hr.cases with rfl | ⟨c, t, rfl, rfl | rfl | rfl⟩ <;> rfl

theorem expPart_stop {r : Bytes} (hr : Stop r) : expPart r = some ([], r) := by
  rcases hr.cases with rfl | ⟨c, t, rfl, rfl | rfl | rfl⟩ <;> rfl

theorem number_big (z : Int) (r : Bytes) (hr : Stop r) : number (bigString z ++ r) = some (bigString z, r) := by
  unfold bigString
  split
  · show number (45 :: (itoa z.natAbs ++ r)) = _
    unfold number
    simp only
    rw [intPart_itoa _ _ hr]
    simp only [fracPart_stop hr, expPart_stop hr, List.append_nil]
    rfl
  · have hd := itoa_digits z.natAbs
    have hne := itoa_ne_nil z.natAbs
    have hi := intPart_itoa z.natAbs r hr
    unfold number
    generalize itoa z.natAbs = l at *
    cases l with
    | nil => exact absurd rfl hne
    | cons c t =>
      have hc : c ≠ 45 := by rintro rfl; have := hd 45 (by simp); simp at this
      have : (match c :: (t ++ r) with | 45 :: t => (([45], t) : Bytes × Bytes) | _ => ([], c :: (t ++ r))) = ([], c :: (t ++ r)) := by
        split
        · next h => rw [List.cons.injEq] at h; exact absurd h.1 hc
        · rfl
      rw [List.cons_append]
      split
      next sign u heq =>
        have e : (sign, u) = (([] : Bytes), c :: (t ++ r)) := heq.symm.trans this
        cases e
        rw [← List.cons_append, hi]
        simp [fracPart_stop hr, expPart_stop hr]

/-! ### Values -/

/-- values `json.Marshal` writes for the records of this code base, nested at most `n` deep -/
inductive Ok : Nat → Json → Prop
  | null (n) : Ok n .null
  | bool (n b) : Ok n (.bool b)
  | num (n) (z : Int) : Ok n (.num (bigString z))
  | str (n) (s : Bytes) : (∀ c ∈ s, c < 128) → Ok n (.str s)
  | arr (n) (l : List Json) : (∀ v ∈ l, Ok n v) → Ok (n + 1) (.arr l)
  | obj (n) (l : List (Bytes × Json)) : (∀ m ∈ l, ∀ c ∈ m.1, c < 128) → (∀ m ∈ l, Ok n m.2) → Ok (n + 1) (.obj l)

theorem ws_cons {c : UInt8} (t : Bytes) (hc : isSpace c = false) : ws (c :: t) = c :: t := by
  unfold ws
  rw [List.dropWhile_cons, hc]; rfl

/-- the first character of a rendered value -/
theorem render_head {n : Nat} {v : Json} (h : Ok n v) : ∃ c t, render v = c :: t ∧ isSpace c = false ∧ c ≠ 93 ∧ c ≠ 125 := by
  cases h with
  | null => exact ⟨110, [117, 108, 108], by decide, by decide, by decide, by decide⟩
  | bool _ b => cases b <;> [exact ⟨102, [97, 108, 115, 101], by decide, by decide, by decide, by decide⟩;
      exact ⟨116, [114, 117, 101], by decide, by decide, by decide, by decide⟩]
  | num _ z =>
    unfold render bigString
    split
    · exact ⟨45, _, rfl, by decide, by decide, by decide⟩
    · have hd := itoa_digits z.natAbs
      have hne := itoa_ne_nil z.natAbs
      cases h : itoa z.natAbs with
      | nil => exact absurd h hne
      | cons c t =>
        rw [h] at hd
        have := hd c (by simp)
        refine ⟨c, t, rfl, ?_, ?_, ?_⟩
        · unfold isSpace
          have : ∀ k : UInt8, k.toNat < 48 → c ≠ k := by rintro k hk rfl; omega
          simp [this 32 (by decide), this 9 (by decide), this 13 (by decide), this 10 (by decide)]
        · rintro rfl; simp at this
        · rintro rfl; simp at this
  | str _ s hs => exact ⟨34, _, by unfold render quote; rfl, by decide, by decide, by decide⟩
  | arr n l hl => exact ⟨91, _, by unfold render; rfl, by decide, by decide, by decide⟩
  | obj n l h1 h2 => exact ⟨123, _, by unfold render; rfl, by decide, by decide, by decide⟩

theorem literal_append (w r : Bytes) (v : Json) : literal w v (w ++ r) = some (v, r) := by
  unfold literal
  rw [List.take_left' rfl, List.drop_left' rfl, if_pos rfl]

theorem elems_render {n : Nat} (hv : ∀ v, Ok n v → ∀ f depth rest, 2 * (render v).length ≤ f → depth + n ≤ maxDepth → Stop rest →
      value f depth (render v ++ rest) = some (v, rest)) :
    ∀ (l : List Json), l ≠ [] → (∀ v ∈ l, Ok n v) → ∀ f depth rest, 2 * (renderElems l).length + 1 ≤ f → depth + n ≤ maxDepth →
      elems f depth (renderElems l ++ 93 :: rest) = some (l, rest)
  | [], h, _, _, _, _, _, _ => absurd rfl h
  | [v], _, hl, f, depth, rest, hf, hd => by
    obtain ⟨g, rfl⟩ : ∃ g, f = g + 1 := ⟨f - 1, by omega⟩
    have e : renderElems [v] = render v := by simp [renderElems]
    rw [e] at hf ⊢
    unfold elems
    rw [hv v (hl v (by simp)) g depth _ (by omega) hd (by exact .inr (.inl rfl))]
    simp only
    rw [ws_cons _ (by decide)]
    rfl
  | v :: w :: t, _, hl, f, depth, rest, hf, hd => by
    obtain ⟨g, rfl⟩ : ∃ g, f = g + 1 := ⟨f - 1, by omega⟩
    have e : renderElems (v :: w :: t) = render v ++ 44 :: renderElems (w :: t) := by rw [renderElems]; simp
    rw [e, List.length_append, List.length_cons] at hf
    rw [e, List.append_assoc, List.cons_append]
    unfold elems
    rw [hv v (hl v (by simp)) g depth _ (by omega) hd (by exact .inl rfl)]
    simp only
    rw [ws_cons _ (by decide)]
    simp only
    rw [elems_render hv (w :: t) (by simp) (fun x hx => hl x (List.mem_cons_of_mem _ hx)) g depth rest (by omega) hd]

theorem strBody_full (k r : Bytes) (hk : ∀ c ∈ k, c < 128) :
    strBody ((k.flatMap esc ++ 34 :: r).length + 1) (k.flatMap esc ++ 34 :: r) = some (k, r) := by
  apply strBody_quote k hk
  have := flatMap_esc_length k
  rw [List.length_append]
  omega

theorem members_render {n : Nat} (hv : ∀ v, Ok n v → ∀ f depth rest, 2 * (render v).length ≤ f → depth + n ≤ maxDepth → Stop rest →
      value f depth (render v ++ rest) = some (v, rest)) :
    ∀ (l : List (Bytes × Json)), l ≠ [] → (∀ m ∈ l, ∀ c ∈ m.1, c < 128) → (∀ m ∈ l, Ok n m.2) → ∀ f depth rest,
      2 * (renderMembers l).length + 1 ≤ f → depth + n ≤ maxDepth →
      members f depth (renderMembers l ++ 125 :: rest) = some (l, rest)
  | [], h, _, _, _, _, _, _, _ => absurd rfl h
  | [(k, v)], _, hk, hl, f, depth, rest, hf, hd => by
    obtain ⟨g, rfl⟩ : ∃ g, f = g + 1 := ⟨f - 1, by omega⟩
    have e : renderMembers [(k, v)] = 34 :: (k.flatMap esc ++ 34 :: 58 :: render v) := by
      rw [renderMembers]; simp [quote]
    rw [e] at hf ⊢
    have hlen : (render v).length ≤ (34 :: (k.flatMap esc ++ 34 :: 58 :: render v)).length := by simp; omega
    have e2 : 34 :: (k.flatMap esc ++ 34 :: 58 :: render v) ++ 125 :: rest =
        34 :: (k.flatMap esc ++ 34 :: (58 :: (render v ++ 125 :: rest))) := by simp
    rw [e2]
    unfold members
    rw [ws_cons _ (by decide)]
    simp only
    rw [strBody_full k _ (hk (k, v) (by simp))]
    simp only
    rw [ws_cons _ (by decide)]
    simp only
    rw [hv v (hl (k, v) (by simp)) g depth _ (by omega) hd (by exact .inr (.inr rfl))]
    simp only
    rw [ws_cons _ (by decide)]
    rfl
  | (k, v) :: w :: t, _, hk, hl, f, depth, rest, hf, hd => by
    obtain ⟨g, rfl⟩ : ∃ g, f = g + 1 := ⟨f - 1, by omega⟩
    have e : renderMembers ((k, v) :: w :: t) = 34 :: (k.flatMap esc ++ 34 :: 58 :: (render v ++ 44 :: renderMembers (w :: t))) := by
      rw [renderMembers]; simp [quote]
    rw [e] at hf ⊢
    have hlen : (render v).length + (renderMembers (w :: t)).length + 1 ≤
        (34 :: (k.flatMap esc ++ 34 :: 58 :: (render v ++ 44 :: renderMembers (w :: t)))).length := by simp; omega
    have e2 : 34 :: (k.flatMap esc ++ 34 :: 58 :: (render v ++ 44 :: renderMembers (w :: t))) ++ 125 :: rest =
        34 :: (k.flatMap esc ++ 34 :: (58 :: (render v ++ 44 :: (renderMembers (w :: t) ++ 125 :: rest)))) := by simp
    rw [e2]
    unfold members
    rw [ws_cons _ (by decide)]
    simp only
    rw [strBody_full k _ (hk (k, v) (by simp))]
    simp only
    rw [ws_cons _ (by decide)]
    simp only
    rw [hv v (hl (k, v) (by simp)) g depth _ (by omega) hd (by exact .inl rfl)]
    simp only
    rw [ws_cons _ (by decide)]
    simp only
    rw [members_render hv (w :: t) (by simp) (fun x hx => hk x (List.mem_cons_of_mem _ hx))
      (fun x hx => hl x (List.mem_cons_of_mem _ hx)) g depth rest (by omega) hd]

theorem renderElems_head {n : Nat} {l : List Json} (hne : l ≠ []) (hl : ∀ v ∈ l, Ok n v) :
    ∃ c t, renderElems l = c :: t ∧ isSpace c = false ∧ c ≠ 93 := by
  cases l with
  | nil => exact absurd rfl hne
  | cons v t =>
    obtain ⟨c, u, e, h1, h2, -⟩ := render_head (hl v (by simp))
    exact ⟨c, _, by rw [renderElems, e]; rfl, h1, h2⟩

theorem value_render : ∀ (n : Nat) (v : Json), Ok n v → ∀ f depth rest, 2 * (render v).length ≤ f → depth + n ≤ maxDepth → Stop rest →
    value f depth (render v ++ rest) = some (v, rest) := by
  intro n
  induction n with
  | zero =>
    intro v hv f depth rest hf hd hr
    exact base hv hf hr (fun l h => by subst h; cases hv) (fun l h => by subst h; cases hv)
  | succ n ih =>
    intro v hv f depth rest hf hd hr
    refine base hv hf hr ?_ ?_
    · rintro l rfl
      cases hv with
      | arr _ _ hl =>
      obtain ⟨g, rfl⟩ : ∃ g, f = g + 1 := ⟨f - 1, by rw [render] at hf; simp at hf; omega⟩
      rw [render] at hf ⊢
      have e : 91 :: (renderElems l ++ [93]) ++ rest = 91 :: (renderElems l ++ 93 :: rest) := by simp
      rw [e]
      unfold value
      rw [ws_cons _ (by decide)]
      simp only
      rw [if_neg (by decide), if_pos trivial, if_neg (by omega)]
      by_cases hne : l = []
      · subst hne
        rw [renderElems, List.nil_append, ws_cons _ (by decide)]
        rfl
      · obtain ⟨c, t, e1, h1, h2⟩ := renderElems_head hne hl
        have e2 : ws (renderElems l ++ 93 :: rest) = c :: (t ++ 93 :: rest) := by
          rw [e1, List.cons_append, ws_cons _ h1]
        rw [e2]
        have := elems_render ih l hne hl g (depth + 1) rest (by simp at hf; omega) (by omega)
        split
        · next heq => rw [List.cons.injEq] at heq; exact absurd heq.1 h2
        · rw [this]
    · rintro l rfl
      cases hv with
      | obj _ _ hk hl =>
      obtain ⟨g, rfl⟩ : ∃ g, f = g + 1 := ⟨f - 1, by rw [render] at hf; simp at hf; omega⟩
      rw [render] at hf ⊢
      have e : 123 :: (renderMembers l ++ [125]) ++ rest = 123 :: (renderMembers l ++ 125 :: rest) := by simp
      rw [e]
      unfold value
      rw [ws_cons _ (by decide)]
      simp only
      rw [if_pos trivial, if_neg (by omega)]
      by_cases hne : l = []
      · subst hne
        rw [renderMembers, List.nil_append, ws_cons _ (by decide)]
        rfl
      · obtain ⟨t, e1⟩ : ∃ t, renderMembers l = 34 :: t := by
          cases l with
          | nil => exact absurd rfl hne
          | cons m t => obtain ⟨k, v⟩ := m; exact ⟨_, by rw [renderMembers, quote]; rfl⟩
        have e2 : ws (renderMembers l ++ 125 :: rest) = 34 :: (t ++ 125 :: rest) := by
          rw [e1, List.cons_append, ws_cons _ (by decide)]
        rw [e2]
        have := members_render ih l hne hk hl g (depth + 1) rest (by simp at hf; omega) (by omega)
        split
        · next heq => rw [List.cons.injEq] at heq; exact absurd heq.1 (by decide)
        · rw [this]
where
  base {n : Nat} {v : Json} (hv : Ok n v) {f depth : Nat} {rest : Bytes} (hf : 2 * (render v).length ≤ f) (hr : Stop rest)
      (ha : ∀ l, v = .arr l → value f depth (render v ++ rest) = some (v, rest))
      (ho : ∀ l, v = .obj l → value f depth (render v ++ rest) = some (v, rest)) :
      value f depth (render v ++ rest) = some (v, rest) := by
    obtain ⟨g, rfl⟩ : ∃ g, f = g + 1 := ⟨f - 1, by
      obtain ⟨c, t, e, -⟩ := render_head hv
      rw [e] at hf; simp at hf; omega⟩
    cases hv with
    | null =>
      rw [render]
      show value (g + 1) depth (110 :: ([117, 108, 108] ++ rest)) = _
      unfold value
      rw [ws_cons _ (by decide)]
      exact literal_append (ascii "null") rest .null
    | bool _ b =>
      rw [render]
      cases b
      · show value (g + 1) depth (102 :: ([97, 108, 115, 101] ++ rest)) = _
        unfold value
        rw [ws_cons _ (by decide)]
        exact literal_append (ascii "false") rest _
      · show value (g + 1) depth (116 :: ([114, 117, 101] ++ rest)) = _
        unfold value
        rw [ws_cons _ (by decide)]
        exact literal_append (ascii "true") rest _
    | num _ z =>
      rw [render]
      have hn := number_big z rest hr
      have hb : ∃ c t, bigString z = c :: t ∧ (c = 45 ∨ 48 ≤ c.toNat ∧ c.toNat ≤ 57) := by
        unfold bigString
        split
        · exact ⟨45, _, rfl, .inl rfl⟩
        · have hd := itoa_digits z.natAbs
          cases h : itoa z.natAbs with
          | nil => exact absurd h (itoa_ne_nil _)
          | cons c t => rw [h] at hd; exact ⟨c, t, rfl, .inr (hd c (by simp))⟩
      obtain ⟨c, t, e, hc⟩ := hb
      rw [e] at hn ⊢
      rw [List.cons_append] at hn ⊢
      have ne : ∀ k : UInt8, k ≠ 45 → (k.toNat < 48 ∨ 57 < k.toNat) → c ≠ k := by
        rintro k h1 h2 rfl
        rcases hc with hc | hc
        · exact h1 hc
        · omega
      unfold value
      rw [ws_cons _ (by
        unfold isSpace
        simp [ne 32 (by decide) (by decide), ne 9 (by decide) (by decide), ne 13 (by decide) (by decide), ne 10 (by decide) (by decide)])]
      simp only
      rw [if_neg (ne 123 (by decide) (by decide)), if_neg (ne 91 (by decide) (by decide)), if_neg (ne 34 (by decide) (by decide)),
        if_neg (ne 116 (by decide) (by decide)), if_neg (ne 102 (by decide) (by decide)), if_neg (ne 110 (by decide) (by decide)), hn]
    | str _ s hs =>
      rw [render, quote]
      have e : 34 :: (s.flatMap esc ++ [34]) ++ rest = 34 :: (s.flatMap esc ++ 34 :: rest) := by simp
      rw [e]
      unfold value
      rw [ws_cons _ (by decide)]
      simp only
      rw [if_neg (by decide), if_neg (by decide), if_pos trivial, strBody_full s rest hs]
    | arr n l hl => exact ha l rfl
    | obj n l h1 h2 => exact ho l rfl

/-- reading what was written -/
theorem parse_render {n : Nat} {v : Json} (h : Ok n v) (hn : n ≤ maxDepth) : parse (render v) = some v := by
  unfold parse
  have := value_render n v h (2 * (render v).length + 2) 0 [] (by omega) (by omega) trivial
  rw [List.append_nil] at this
  rw [this]
  rfl

end Tss.Json
