import Verif.Lemmas.Json
/-! What a reader accepts it also accepts with more input behind it, so no proper prefix of a container is accepted. -/
namespace Tss.Json
open Tss Text

theorem ws_append {s : Bytes} (h : ws s ≠ []) (t : Bytes) : ws (s ++ t) = ws s ++ t := by
  unfold ws at *
  induction s with
  | nil => exact absurd rfl h
  | cons c s ih =>
    rw [List.cons_append, List.dropWhile_cons, List.dropWhile_cons] at *
    split
    · next hc => rw [if_pos hc] at h; exact ih h
    · rfl

theorem while_append (p : UInt8 → Bool) {s : Bytes} (h : s.dropWhile p ≠ []) (t : Bytes) :
    (s ++ t).takeWhile p = s.takeWhile p ∧ (s ++ t).dropWhile p = s.dropWhile p ++ t := by
  induction s with
  | nil => exact absurd rfl h
  | cons c s ih =>
    rw [List.cons_append, List.dropWhile_cons, List.dropWhile_cons, List.takeWhile_cons, List.takeWhile_cons] at *
    by_cases hc : p c = true
    · rw [if_pos hc] at h
      obtain ⟨h1, h2⟩ := ih h
      rw [if_pos hc, if_pos hc, if_pos hc, if_pos hc, h1, h2]
      exact ⟨rfl, rfl⟩
    · rw [if_neg hc, if_neg hc, if_neg hc, if_neg hc]
      exact ⟨rfl, rfl⟩

theorem intPart_append {s i r : Bytes} (h : intPart s = some (i, r)) (hr : r ≠ []) (t : Bytes) :
    intPart (s ++ t) = some (i, r ++ t) := by
  cases s with
  | nil => cases h
  | cons c s =>
    unfold intPart at h
    simp only at h
    rw [List.cons_append]
    unfold intPart
    simp only
    split at h
    · next hc => rw [if_pos hc]; cases h; rfl
    · next hc =>
      rw [if_neg hc]
      split at h
      · next hd =>
        rw [if_pos hd]
        cases h
        obtain ⟨h1, h2⟩ := while_append isDigit hr t
        rw [h1, h2]
      · cases h

theorem fracPart_append {s i r : Bytes} (h : fracPart s = some (i, r)) (hr : r ≠ []) (t : Bytes) :
    fracPart (s ++ t) = some (i, r ++ t) := by
  unfold fracPart at h
  split at h
  · next u =>
    rw [List.cons_append]
    unfold fracPart
    simp only
    split at h
    · cases h
    · next he =>
      cases h
      obtain ⟨h1, h2⟩ := while_append isDigit hr t
      rw [h1, h2, if_neg he]
  · next hn =>
    cases h
    cases s with
    | nil => exact absurd rfl hr
    | cons c u =>
      rw [List.cons_append]
      unfold fracPart
      split
      · next heq => rw [List.cons.injEq] at heq; exact absurd (by rw [heq.1]) (hn u)
      · rfl

theorem expPart_append {s i r : Bytes} (h : expPart s = some (i, r)) (hr : r ≠ []) (t : Bytes) :
    expPart (s ++ t) = some (i, r ++ t) := by
  cases s with
  | nil => cases h; exact absurd rfl hr
  | cons c s =>
    rw [List.cons_append]
    unfold expPart at h ⊢
    simp only at h ⊢
    split at h
    · next hc =>
      rw [if_pos hc]
      cases s with
      | nil => simp at h
      | cons d u =>
        rw [List.cons_append]
        simp only at h ⊢
        by_cases hd : d = 43 ∨ d = 45
        · rw [if_pos hd] at h ⊢
          simp only at h ⊢
          split at h
          · cases h
          · next he =>
            cases h
            obtain ⟨h1, h2⟩ := while_append isDigit hr t
            rw [h1, h2, if_neg he]
        · rw [if_neg hd] at h ⊢
          simp only at h ⊢
          split at h
          · cases h
          · next he =>
            cases h
            obtain ⟨h1, h2⟩ := while_append isDigit hr t
            rw [← List.cons_append, h1, h2, if_neg he]
    · next hc => cases h; rw [if_neg hc]; rfl

theorem number_append {s u r : Bytes} (h : number s = some (u, r)) (hr : r ≠ []) (t : Bytes) :
    number (s ++ t) = some (u, r ++ t) := by
  have core : ∀ (sign s : Bytes), (match intPart s with
      | none => none
      | some (i, r1) =>
        match fracPart r1 with
        | none => none
        | some (f, r2) =>
          match expPart r2 with
          | none => none
          | some (x, r3) => some (sign ++ i ++ f ++ x, r3)) = some (u, r) →
      (match intPart (s ++ t) with
      | none => none
      | some (i, r1) =>
        match fracPart r1 with
        | none => none
        | some (f, r2) =>
          match expPart r2 with
          | none => none
          | some (x, r3) => some (sign ++ i ++ f ++ x, r3)) = some (u, r ++ t) := by
    intro sign s h
    split at h
    · cases h
    next i r1 h1 =>
    split at h
    · cases h
    next f r2 h2 =>
    split at h
    · cases h
    next x r3 h3 =>
    cases h
    have n2 : r2 ≠ [] := by rintro rfl; cases h3; exact hr rfl
    have n1 : r1 ≠ [] := by rintro rfl; cases h2; exact n2 rfl
    simp only [intPart_append h1 n1, fracPart_append h2 n2, expPart_append h3 hr]
  unfold number at h ⊢
  cases s with
  | nil => simp [intPart] at h
  | cons c s =>
    by_cases hc : c = 45
    · subst hc
      exact core [45] s h
    · have e : ∀ l : Bytes, (match c :: l with | 45 :: t => (([45], t) : Bytes × Bytes) | _ => ([], c :: l)) = ([], c :: l) := by
        intro l
        split
        · next heq => rw [List.cons.injEq] at heq; exact absurd heq.1 hc
        · rfl
      rw [List.cons_append]
      have e1 := e s
      have e2 := e (s ++ t)
      split at h
      next a b heq =>
        have := heq.symm.trans e1
        cases this
        split
        next a' b' heq' =>
          have := heq'.symm.trans e2
          cases this
          exact core [] (c :: s) h

theorem getu4_append {s r : Bytes} {n : Nat} (h : getu4 s = some (n, r)) (t : Bytes) : getu4 (s ++ t) = some (n, r ++ t) := by
  unfold getu4 at h
  split at h
  · next a b c d u =>
    show getu4 (a :: b :: c :: d :: (u ++ t)) = _
    unfold getu4
    simp only
    split at h
    · next h1 h2 h3 h4 => cases h; simp only [h1, h2, h3, h4]
    · cases h
  · cases h

theorem strBody_quote_mem : ∀ (f : Nat) (s u r : Bytes), strBody f s = some (u, r) → (34 : UInt8) ∈ s
  | 0, _, _, _, h => by cases h
  | f + 1, [], _, _, h => by cases h
  | f + 1, c :: t, u, r, h => by
    unfold strBody at h
    split at h
    · next hc => rw [hc]; simp
    split at h
    · cases h
    split at h
    · split at h
      · cases h
      next e t2 =>
      split at h
      · split at h
        · cases h
        next w t3 hg =>
        split at h
        · next s' r' hs =>
          have hm := strBody_quote_mem f _ _ _ hs
          have h3 : ∀ x ∈ t3, x ∈ t2 := by
            unfold getu4 at hg
            split at hg
            · split at hg
              · cases hg; intro x hx; simp [hx]
              · cases hg
            · cases hg
          have h4 : ∀ x ∈ (uEscape w t3).2, x ∈ t3 := by
            unfold uEscape
            split
            · split
              · next t4 =>
                split
                · next v t' hg' =>
                  split
                  · intro x hx
                    unfold getu4 at hg'
                    split at hg'
                    · split at hg'
                      · cases hg'; simp [show x ∈ t' from hx]
                      · cases hg'
                    · cases hg'
                  · exact fun x hx => hx
                · exact fun x hx => hx
              · exact fun x hx => hx
            · exact fun x hx => hx
          simp [h3 _ (h4 _ hm)]
        · cases h
      · split at h
        · cases h
        split at h
        · next hs => have := strBody_quote_mem f _ _ _ hs; simp [this]
        · cases h
    split at h
    · split at h
      · next hs => have := strBody_quote_mem f _ _ _ hs; simp [this]
      · cases h
    · split at h
      · next hs => exact List.mem_of_mem_drop (strBody_quote_mem f _ _ _ hs)
      · cases h

theorem within_quote (lo hi : Nat) (h : 34 < lo) : within lo hi 34 = false := by
  unfold within
  rw [decide_eq_false (by show ¬ lo ≤ 34; omega)]; rfl

theorem runeLen_append (c : UInt8) (t x : Bytes) (h : (34 : UInt8) ∈ t) : runeLen (c :: (t ++ x)) = runeLen (c :: t) := by
  have w1 : within 128 191 34 = false := by decide
  have w2 : ∀ n : Nat, within (if n = 0xE0 then 0xA0 else 0x80) (if n = 0xED then 0x9F else 0xBF) 34 = false := by
    intro n; apply within_quote; split <;> omega
  have w3 : ∀ n : Nat, within (if n = 0xF0 then 0x90 else 0x80) (if n = 0xF4 then 0x8F else 0xBF) 34 = false := by
    intro n; apply within_quote; split <;> omega
  match t, h with
  | [b], h =>
    have : b = 34 := (by simpa using h : (34 : UInt8) = b).symm
    subst this
    cases x with
    | nil => rfl
    | cons y x =>
      cases x with
      | nil => simp [runeLen, w1, w2]
      | cons z x => simp [runeLen, w1, w2, w3]
  | [b, d], h =>
    cases x with
    | nil => rfl
    | cons y x =>
      rcases (by simpa using h : 34 = b ∨ 34 = d) with rfl | rfl
      · simp [runeLen, w1, w3]
      · simp [runeLen, w1]
  | b :: d :: e :: t, h => simp [runeLen]

theorem uEscape_plain {w : Nat} (hw : 0xD800 ≤ w ∧ w < 0xE000) {l : Bytes} (hl : ∀ t, l ≠ 92 :: 117 :: t) :
    uEscape w l = (replacement, l) := by
  unfold uEscape
  rw [if_pos hw]
  split
  · next t => exact absurd rfl (hl t)
  · rfl

theorem uEscape_pair {w : Nat} (hw : 0xD800 ≤ w ∧ w < 0xE000) (t : Bytes) : uEscape w (92 :: 117 :: t) =
    match getu4 t with
      | some (v, t') =>
        if w < 0xDC00 ∧ 0xDC00 ≤ v ∧ v < 0xE000 then (encodeRune (0x10000 + (w - 0xD800) * 1024 + (v - 0xDC00)), t')
        else (replacement, 92 :: 117 :: t)
      | none => (replacement, 92 :: 117 :: t) := by
  unfold uEscape
  rw [if_pos hw]
  rfl

theorem uEscape_append {f : Nat} (w : Nat) (s u r x : Bytes) (h : strBody f (uEscape w s).2 = some (u, r)) :
    uEscape w (s ++ x) = ((uEscape w s).1, (uEscape w s).2 ++ x) := by
  by_cases hw : 0xD800 ≤ w ∧ w < 0xE000
  · by_cases hp : ∃ t, s = 92 :: 117 :: t
    · obtain ⟨t, rfl⟩ := hp
      rw [uEscape_pair hw] at h ⊢
      show uEscape w (92 :: 117 :: (t ++ x)) = _
      rw [uEscape_pair hw]
      cases hg : getu4 t with
      | some p =>
        obtain ⟨v, t'⟩ := p
        rw [getu4_append hg x]
        simp only
        by_cases hc : w < 0xDC00 ∧ 0xDC00 ≤ v ∧ v < 0xE000
        · rw [if_pos hc, if_pos hc]
        · rw [if_neg hc, if_neg hc]; rfl
      | none =>
        exfalso
        rw [hg] at h
        simp only at h
        cases f with
        | zero => cases h
        | succ f =>
          unfold strBody at h
          simp [hg] at h
    · push Not at hp
      rw [uEscape_plain hw hp] at h ⊢
      simp only at h
      refine uEscape_plain hw ?_
      intro t ht
      match s, h, hp with
      | [], h, _ => cases f <;> cases h
      | [b], h, _ =>
        have hb : b = 92 := by simpa using congrArg List.head? ht
        subst hb
        cases f with
        | zero => cases h
        | succ f => unfold strBody at h; simp at h
      | b :: d :: s, h, hn =>
        rw [List.cons_append, List.cons_append, List.cons.injEq, List.cons.injEq] at ht
        exact hn s (by rw [ht.1, ht.2.1])
  · unfold uEscape
    rw [if_neg hw, if_neg hw]

theorem strBody_append : ∀ (f : Nat) (s u r : Bytes), strBody f s = some (u, r) → ∀ g, f ≤ g → ∀ x, strBody g (s ++ x) = some (u, r ++ x)
  | 0, _, _, _, h, _, _, _ => by cases h
  | f + 1, [], _, _, h, _, _, _ => by cases h
  | f + 1, c :: t, u, r, h, g, hg, x => by
    obtain ⟨g, rfl⟩ : ∃ k, g = k + 1 := ⟨g - 1, by omega⟩
    have hfg : f ≤ g := by omega
    rw [List.cons_append]
    unfold strBody at h ⊢
    by_cases h1 : c = 34
    · rw [if_pos h1] at h ⊢; cases h; rfl
    rw [if_neg h1] at h ⊢
    by_cases h2 : c < 32
    · rw [if_pos h2] at h; cases h
    rw [if_neg h2] at h ⊢
    by_cases h3 : c = 92
    · rw [if_pos h3] at h ⊢
      cases t with
      | nil => cases h
      | cons e t2 =>
        rw [List.cons_append]
        simp only at h ⊢
        by_cases h4 : e = 117
        · rw [if_pos h4] at h ⊢
          cases hgu : getu4 t2 with
          | none => rw [hgu] at h; cases h
          | some p =>
            obtain ⟨w, t3⟩ := p
            rw [hgu] at h
            rw [getu4_append hgu]
            simp only at h ⊢
            cases hs : strBody f (uEscape w t3).2 with
            | none => rw [hs] at h; cases h
            | some q =>
              obtain ⟨s', r'⟩ := q
              rw [hs] at h
              cases h
              rw [uEscape_append w t3 _ _ x hs]
              simp only
              rw [strBody_append f _ _ _ hs g hfg x]
        · rw [if_neg h4] at h ⊢
          cases he : unesc e with
          | none => rw [he] at h; cases h
          | some b =>
            rw [he] at h
            simp only at h ⊢
            cases hs : strBody f t2 with
            | none => rw [hs] at h; cases h
            | some q =>
              obtain ⟨s', r'⟩ := q
              rw [hs] at h
              cases h
              rw [strBody_append f _ _ _ hs g hfg x]
    rw [if_neg h3] at h ⊢
    by_cases h4 : runeLen (c :: t) = 0
    · rw [if_pos h4] at h
      cases hs : strBody f t with
      | none => rw [hs] at h; cases h
      | some q =>
        obtain ⟨s', r'⟩ := q
        rw [hs] at h
        cases h
        rw [runeLen_append c t x (strBody_quote_mem _ _ _ _ hs), if_pos h4, strBody_append f _ _ _ hs g hfg x]
    · rw [if_neg h4] at h
      cases hs : strBody f ((c :: t).drop (runeLen (c :: t))) with
      | none => rw [hs] at h; cases h
      | some q =>
        obtain ⟨s', r'⟩ := q
        rw [hs] at h
        cases h
        have hm := strBody_quote_mem _ _ _ _ hs
        obtain ⟨k, hk⟩ : ∃ k, runeLen (c :: t) = k + 1 := ⟨runeLen (c :: t) - 1, by omega⟩
        rw [hk, List.drop_succ_cons] at hm hs
        have hkl : k ≤ t.length := by
          by_contra hlt
          rw [List.drop_of_length_le (by omega)] at hm
          cases hm
        rw [runeLen_append c t x (List.mem_of_mem_drop hm), if_neg h4, hk, List.drop_succ_cons, List.take_succ_cons,
          List.drop_append_of_le_length hkl, List.take_append_of_le_length hkl, strBody_append f _ _ _ hs g hfg x, List.take_succ_cons]

theorem strBody_append' {t u r : Bytes} (h : strBody (t.length + 1) t = some (u, r)) (x : Bytes) :
    strBody ((t ++ x).length + 1) (t ++ x) = some (u, r ++ x) :=
  strBody_append _ _ _ _ h _ (by rw [List.length_append]; omega) x

theorem literal_ext {w s r : Bytes} {v v' : Json} (h : literal w v s = some (v', r)) (x : Bytes) :
    literal w v (s ++ x) = some (v', r ++ x) := by
  unfold literal at h ⊢
  split at h
  · next hw =>
    cases h
    have hl : w.length ≤ s.length := by
      have := congrArg List.length hw
      rw [List.length_take] at this
      omega
    rw [List.take_append_of_le_length hl, if_pos hw, List.drop_append_of_le_length hl]
  · cases h

/-- not a number -/
def NotNum : Json → Prop
  | .num _ => False
  | _ => True

mutual
theorem value_append : ∀ (f depth : Nat) (s r : Bytes) (v : Json), value f depth s = some (v, r) → (r ≠ [] ∨ NotNum v) → ∀ g, f ≤ g →
    ∀ x, value g depth (s ++ x) = some (v, r ++ x)
  | 0, _, _, _, _, h, _, _, _, _ => by rw [value] at h; cases h
  | f + 1, depth, s, r, v, h, hn, g, hg, x => by
    obtain ⟨g, rfl⟩ : ∃ k, g = k + 1 := ⟨g - 1, by omega⟩
    have hfg : f ≤ g := by omega
    unfold value at h ⊢
    cases hws : ws s with
    | nil => rw [hws] at h; cases h
    | cons c t =>
      rw [hws] at h
      rw [ws_append (by rw [hws]; simp), hws, List.cons_append]
      simp only at h ⊢
      by_cases h1 : c = 123
      · rw [if_pos h1] at h ⊢
        by_cases hd : maxDepth ≤ depth
        · rw [if_pos hd] at h; cases h
        rw [if_neg hd] at h ⊢
        cases hwt : ws t with
        | nil =>
          exfalso
          rw [hwt] at h
          simp only at h
          cases f with
          | zero => rw [members] at h; cases h
          | succ f => unfold members at h; rw [hwt] at h; cases h
        | cons b t' =>
          rw [hwt] at h
          rw [ws_append (by rw [hwt]; simp), hwt, List.cons_append]
          by_cases hb : b = 125
          · subst hb; simp only at h ⊢; cases h; rfl
          · split at h
            · next heq => rw [List.cons.injEq] at heq; exact absurd heq.1 hb
            split
            · next heq => rw [List.cons.injEq] at heq; exact absurd heq.1 hb
            cases hm : members f (depth + 1) t with
            | none => rw [hm] at h; cases h
            | some q =>
              obtain ⟨l, r'⟩ := q
              rw [hm] at h
              cases h
              rw [members_append f (depth + 1) t _ l hm g hfg x]
      rw [if_neg h1] at h ⊢
      by_cases h2 : c = 91
      · rw [if_pos h2] at h ⊢
        by_cases hd : maxDepth ≤ depth
        · rw [if_pos hd] at h; cases h
        rw [if_neg hd] at h ⊢
        cases hwt : ws t with
        | nil =>
          exfalso
          rw [hwt] at h
          simp only at h
          cases f with
          | zero => rw [elems] at h; cases h
          | succ f =>
            unfold elems at h
            cases f with
            | zero => rw [value] at h; cases h
            | succ f => unfold value at h; rw [hwt] at h; cases h
        | cons b t' =>
          rw [hwt] at h
          rw [ws_append (by rw [hwt]; simp), hwt, List.cons_append]
          by_cases hb : b = 93
          · subst hb; simp only at h ⊢; cases h; rfl
          · split at h
            · next heq => rw [List.cons.injEq] at heq; exact absurd heq.1 hb
            split
            · next heq => rw [List.cons.injEq] at heq; exact absurd heq.1 hb
            cases hm : elems f (depth + 1) t with
            | none => rw [hm] at h; cases h
            | some q =>
              obtain ⟨l, r'⟩ := q
              rw [hm] at h
              cases h
              rw [elems_append f (depth + 1) t _ l hm g hfg x]
      rw [if_neg h2] at h ⊢
      by_cases h3 : c = 34
      · rw [if_pos h3] at h ⊢
        cases hs : strBody (t.length + 1) t with
        | none => rw [hs] at h; cases h
        | some q =>
          obtain ⟨u, r'⟩ := q
          rw [hs] at h
          cases h
          rw [strBody_append' hs x]
      rw [if_neg h3] at h ⊢
      by_cases h4 : c = 116
      · rw [if_pos h4] at h ⊢; rw [← List.cons_append]; exact literal_ext h x
      rw [if_neg h4] at h ⊢
      by_cases h5 : c = 102
      · rw [if_pos h5] at h ⊢; rw [← List.cons_append]; exact literal_ext h x
      rw [if_neg h5] at h ⊢
      by_cases h6 : c = 110
      · rw [if_pos h6] at h ⊢; rw [← List.cons_append]; exact literal_ext h x
      rw [if_neg h6] at h ⊢
      cases hs : number (c :: t) with
      | none => rw [hs] at h; cases h
      | some q =>
        obtain ⟨u, r'⟩ := q
        rw [hs] at h
        cases h
        have hr : r ≠ [] := by
          rcases hn with hn | hn
          · exact hn
          · exact absurd hn id
        have := number_append hs hr x
        rw [List.cons_append] at this
        rw [this]
theorem elems_append : ∀ (f depth : Nat) (s r : Bytes) (l : List Json), elems f depth s = some (l, r) → ∀ g, f ≤ g →
    ∀ x, elems g depth (s ++ x) = some (l, r ++ x)
  | 0, _, _, _, _, h, _, _, _ => by rw [elems] at h; cases h
  | f + 1, depth, s, r, l, h, g, hg, x => by
    obtain ⟨g, rfl⟩ : ∃ k, g = k + 1 := ⟨g - 1, by omega⟩
    have hfg : f ≤ g := by omega
    unfold elems at h ⊢
    cases hv : value f depth s with
    | none => rw [hv] at h; cases h
    | some q =>
      obtain ⟨v, r0⟩ := q
      rw [hv] at h
      simp only at h
      have hw : ws r0 ≠ [] := by intro hw; rw [hw] at h; cases h
      have hr0 : r0 ≠ [] := by rintro rfl; exact hw rfl
      rw [value_append f depth s r0 v hv (.inl hr0) g hfg x]
      simp only
      rw [ws_append hw]
      split at h
      · next r1 heq =>
        rw [heq, List.cons_append]
        simp only
        cases he : elems f depth r1 with
        | none => rw [he] at h; cases h
        | some q =>
          obtain ⟨l', r2⟩ := q
          rw [he] at h
          cases h
          rw [elems_append f depth r1 r l' he g hfg x]
      · next r1 heq =>
        rw [heq, List.cons_append]
        cases h
        rfl
      · cases h
theorem members_append : ∀ (f depth : Nat) (s r : Bytes) (l : List (Bytes × Json)), members f depth s = some (l, r) → ∀ g, f ≤ g →
    ∀ x, members g depth (s ++ x) = some (l, r ++ x)
  | 0, _, _, _, _, h, _, _, _ => by rw [members] at h; cases h
  | f + 1, depth, s, r, l, h, g, hg, x => by
    obtain ⟨g, rfl⟩ : ∃ k, g = k + 1 := ⟨g - 1, by omega⟩
    have hfg : f ≤ g := by omega
    unfold members at h ⊢
    split at h
    · next t heq =>
      rw [ws_append (by rw [heq]; simp), heq, List.cons_append]
      simp only
      cases hs : strBody (t.length + 1) t with
      | none => rw [hs] at h; cases h
      | some q =>
        obtain ⟨k, r'⟩ := q
        rw [hs] at h
        rw [strBody_append' hs x]
        simp only at h ⊢
        split at h
        · next r0 heq0 =>
          rw [ws_append (by rw [heq0]; simp), heq0, List.cons_append]
          simp only
          cases hv : value f depth r0 with
          | none => rw [hv] at h; cases h
          | some q =>
            obtain ⟨v, r1⟩ := q
            rw [hv] at h
            simp only at h
            have hw : ws r1 ≠ [] := by intro hw; rw [hw] at h; cases h
            have hr1 : r1 ≠ [] := by rintro rfl; exact hw rfl
            rw [value_append f depth r0 r1 v hv (.inl hr1) g hfg x]
            simp only
            rw [ws_append hw]
            split at h
            · next r2 heq2 =>
              rw [heq2, List.cons_append]
              simp only
              cases he : members f depth r2 with
              | none => rw [he] at h; cases h
              | some q =>
                obtain ⟨l', r3⟩ := q
                rw [he] at h
                cases h
                rw [members_append f depth r2 r l' he g hfg x]
            · next r2 heq2 =>
              rw [heq2, List.cons_append]
              cases h
              rfl
            · cases h
        · cases h
    · cases h
end

/-- a value that begins with a brace is an object -/
theorem value_brace {f depth : Nat} {t r : Bytes} {v : Json} (h : value f depth (123 :: t) = some (v, r)) : NotNum v := by
  cases f with
  | zero => rw [value] at h; cases h
  | succ f =>
    unfold value at h
    rw [ws_cons _ (by decide)] at h
    simp only at h
    rw [if_pos trivial] at h
    split at h
    · cases h
    split at h
    · cases h; trivial
    · split at h
      · cases h; trivial
      · cases h

/-- no proper prefix of a rendered object is a JSON text -/
theorem parse_prefix {n : Nat} {l : List (Bytes × Json)} (h : Ok n (.obj l)) (hn : n ≤ maxDepth) {p x : Bytes}
    (e : render (.obj l) = p ++ x) (hx : x ≠ []) : parse p = none := by
  have hv := value_render n _ h (2 * (render (.obj l)).length + 2) 0 [] (by omega) (by omega) trivial
  rw [List.append_nil] at hv
  unfold parse
  cases hp : value (2 * p.length + 2) 0 p with
  | none => rfl
  | some q =>
    exfalso
    obtain ⟨v, r⟩ := q
    have hbr : NotNum v := by
      cases p with
      | nil => unfold value at hp; cases hp
      | cons c t =>
        have : c = 123 := by
          rw [render] at e
          simpa using (congrArg List.head? e).symm
        subst this
        exact value_brace hp
    have := value_append _ _ _ _ _ hp (.inr hbr) (2 * (render (.obj l)).length + 2) (by rw [e, List.length_append]; omega) x
    rw [← e, hv] at this
    rw [Option.some.injEq, Prod.mk.injEq] at this
    exact hx (List.append_eq_nil_iff.mp this.2.symm).2

/-- after a rendered object only white space may follow -/
theorem parse_suffix {n : Nat} {l : List (Bytes × Json)} (h : Ok n (.obj l)) (hn : n ≤ maxDepth) {x : Bytes}
    (hx : ∃ c ∈ x, isSpace c = false) : parse (render (.obj l) ++ x) = none := by
  have hv := value_render n _ h (2 * (render (.obj l)).length + 2) 0 [] (by omega) (by omega) trivial
  rw [List.append_nil] at hv
  have := value_append _ _ _ _ _ hv (.inr trivial) (2 * (render (.obj l) ++ x).length + 2) (by rw [List.length_append]; omega) x
  unfold parse
  rw [this]
  simp only [List.nil_append]
  rw [if_neg]
  obtain ⟨c, hc, hs⟩ := hx
  intro he
  have key : ∀ l : Bytes, c ∈ l → ws l ≠ [] := by
    intro l
    unfold ws
    induction l with
    | nil => intro h; cases h
    | cons d l ih =>
      intro h
      rw [List.dropWhile_cons]
      split
      · next hd =>
        rcases List.mem_cons.mp h with rfl | h
        · rw [hs] at hd; cases hd
        · exact ih h
      · simp
  exact key x hc (List.isEmpty_iff.mp he)

/-- white space after a rendered object changes nothing -/
theorem parse_spaces {n : Nat} {l : List (Bytes × Json)} (h : Ok n (.obj l)) (hn : n ≤ maxDepth) {x : Bytes}
    (hx : ∀ c ∈ x, isSpace c = true) : parse (render (.obj l) ++ x) = some (.obj l) := by
  have hv := value_render n _ h (2 * (render (.obj l)).length + 2) 0 [] (by omega) (by omega) trivial
  rw [List.append_nil] at hv
  have := value_append _ _ _ _ _ hv (.inr trivial) (2 * (render (.obj l) ++ x).length + 2) (by rw [List.length_append]; omega) x
  unfold parse
  rw [this]
  simp only [List.nil_append]
  rw [if_pos]
  have key : ∀ l : Bytes, (∀ c ∈ l, isSpace c = true) → ws l = [] := by
    intro l
    unfold ws
    induction l with
    | nil => intro _; rfl
    | cons d l ih =>
      intro h
      rw [List.dropWhile_cons, if_pos (h d (by simp))]
      exact ih fun c hc => h c (by simp [hc])
  rw [key x hx]
  rfl

end Tss.Json
