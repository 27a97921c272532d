import Verif.Props.ExtKeyEx
/-!
C49, the other direction of base58: encoding inverts decoding on texts over the alphabet, so the text of an extended key is
canonical: a text that is accepted is the text the key prints as, and no other text gives that key.
-/
namespace Tss.Ckd
open Tss

theorem fold_le_acc (ds : List Nat) (a : Nat) : a ≤ ds.foldl (fun a d => a * 58 + d) a := by
  induction ds generalizing a with
  | nil => exact le_refl a
  | cons d t ih => rw [List.foldl_cons]; exact le_trans (by omega) (ih _)

theorem fold_pos {ds : List Nat} (h0 : ds.head? ≠ some 0) (hne : ds ≠ []) : 0 < ds.foldl (fun a d => a * 58 + d) 0 := by
  cases ds with
  | nil => exact absurd rfl hne
  | cons d t =>
    rw [List.foldl_cons]
    have : d ≠ 0 := by simpa using h0
    exact lt_of_lt_of_le (by omega) (fold_le_acc t _)

/-- The digits of a number are determined: no leading zero, each below 58. -/
theorem digits_unique (f : Nat) : ∀ ds : List Nat, (∀ d ∈ ds, d < 58) → ds.head? ≠ some 0 →
    ds.foldl (fun a d => a * 58 + d) 0 ≤ f → b58digits f (ds.foldl (fun a d => a * 58 + d) 0) = ds := by
  induction f with
  | zero =>
    intro ds _ h0 hf
    by_cases hne : ds = []
    · subst hne; rfl
    · have := fold_pos h0 hne; omega
  | succ f ih =>
    intro ds hlt h0 hf
    by_cases hne : ds = []
    · subst hne; rfl
    · have hp := fold_pos h0 hne
      unfold b58digits
      rw [if_neg (by omega)]
      obtain ⟨t, d, rfl⟩ : ∃ t d, ds = t ++ [d] := ⟨ds.dropLast, ds.getLast hne, (List.dropLast_concat_getLast hne).symm⟩
      rw [List.foldl_append] at hf hp ⊢
      simp only [List.foldl_cons, List.foldl_nil] at hf hp ⊢
      have hd : d < 58 := hlt d (by simp)
      have e1 : (t.foldl (fun a d => a * 58 + d) 0 * 58 + d) / 58 = t.foldl (fun a d => a * 58 + d) 0 := by omega
      have e2 : (t.foldl (fun a d => a * 58 + d) 0 * 58 + d) % 58 = d := by omega
      rw [e1, e2, ih t (fun x hx => hlt x (by simp [hx])) ?_ (by omega)]
      cases t with
      | nil => simp
      | cons x t => simpa using h0

theorem alpha_back (c : UInt8) (h : b58alphabet.contains c = true) :
    b58alphabet.getD (b58alphabet.idxOf c) 0 = c ∧ b58alphabet.idxOf c < 58 ∧ (b58alphabet.idxOf c = 0 → c = 49) := by
  revert h
  apply uint8_all (fun c => b58alphabet.contains c = true →
    b58alphabet.getD (b58alphabet.idxOf c) 0 = c ∧ b58alphabet.idxOf c < 58 ∧ (b58alphabet.idxOf c = 0 → c = 49))
  decide +kernel

theorem strip_head (b : Bytes) : (stripZeros b).head? ≠ some 0 := by
  induction b with
  | nil => simp [stripZeros]
  | cons x t ih =>
    unfold stripZeros
    by_cases hx : x = 0
    · subst hx; simpa using ih
    · simp [hx]

theorem natBE_head (n : Nat) : (natBE n).head? ≠ some 0 := by
  have := natBE_beNat (natBE n)
  rw [beNat_natBE] at this
  rw [this]; exact strip_head _

theorem beNat_zeros (z : Nat) (b : Bytes) : beNat (List.replicate z 0 ++ b) = beNat b := by
  induction z with
  | zero => rfl
  | succ z ih => rw [List.replicate_succ, List.cons_append, beNat_cons, ih]; simp

theorem ones_strip (s : Bytes) : ∃ t, s = List.replicate (leading 49 s) 49 ++ t ∧ t.head? ≠ some 49 := by
  induction s with
  | nil => exact ⟨[], rfl, by simp⟩
  | cons a t ih =>
    by_cases h : a = 49
    · subst h
      obtain ⟨u, h1, h2⟩ := ih
      refine ⟨u, ?_, h2⟩
      have : leading 49 (49 :: t) = leading 49 t + 1 := by simp [leading]
      rw [this, List.replicate_succ, List.cons_append, ← h1]
    · refine ⟨a :: t, ?_, by simpa using h⟩
      have : leading 49 (a :: t) = 0 := by simp [leading, h]
      rw [this]; rfl

/-- C49: encoding inverts decoding for base58 as published on every text over the alphabet. -/
theorem C49_base58_encode_decode (s : Bytes) (h : ∀ c ∈ s, b58alphabet.contains c = true) : base58Encode (base58Decode s) = s := by
  obtain ⟨t, h1, h2⟩ := ones_strip s
  generalize leading 49 s = z at h1
  subst h1
  have ht : ∀ c ∈ t, b58alphabet.contains c = true := fun c hc => h c (by simp [hc])
  have hdec : base58Decode (List.replicate z 49 ++ t) =
      List.replicate z 0 ++ natBE (t.foldl (fun a c => a * 58 + b58alphabet.idxOf c) 0) := by
    unfold base58Decode
    rw [if_pos (List.all_eq_true.mpr h)]
    simp only
    rw [fold_ones, leading_replicate _ _ _ h2]
  rw [hdec]
  unfold base58Encode
  rw [leading_replicate _ _ _ (natBE_head _), beNat_zeros, beNat_natBE]
  have hf : t.foldl (fun a c => a * 58 + b58alphabet.idxOf c) 0 =
      (t.map b58alphabet.idxOf).foldl (fun a d => a * 58 + d) 0 := by rw [List.foldl_map]
  rw [hf, digits_unique _ _ ?_ ?_ (le_refl _)]
  · congr 1
    rw [List.map_map]
    conv_rhs => rw [← List.map_id t]
    exact List.map_congr_left fun c hc => (alpha_back c (ht c hc)).1
  · intro d hd
    obtain ⟨c, hc, rfl⟩ := List.mem_map.mp hd
    exact (alpha_back c (ht c hc)).2.1
  · cases t with
    | nil => simp
    | cons c t =>
      simp only [List.map_cons, List.head?_cons, ne_eq, Option.some.injEq] at h2 ⊢
      intro h0; exact h2 ((alpha_back c (ht c (by simp))).2.2 h0)

/-- C49: with base58 as published and any digest, a text that parses is exactly the text the key serialises to. -/
theorem C49_text_canonical {S : StrEnv} (hS : spec.Codec S) (he : S.enc58 = base58Encode) (hd : S.dec58 = base58Decode) {s : Bytes}
    {k : Key} (h : newExtendedKeyFromString S s .koblitz = .ok k) : k.serialize S = .ok s := by
  rw [C49_reserialises hS h, he, hd]
  have hl : (S.dec58 s).length = 82 := (parse_ok h).1
  rw [hd] at hl
  by_cases ha : s.all (fun c => b58alphabet.contains c) = true
  · rw [C49_base58_encode_decode s (List.all_eq_true.mp ha)]
  · unfold base58Decode at hl
    rw [if_neg ha] at hl; simp at hl

/-- C49: so two texts that parse to one key are the same text. -/
theorem C49_one_text {S : StrEnv} (hS : spec.Codec S) (he : S.enc58 = base58Encode) (hd : S.dec58 = base58Decode) {s s' : Bytes}
    {k : Key} (h : newExtendedKeyFromString S s .koblitz = .ok k) (h' : newExtendedKeyFromString S s' .koblitz = .ok k) : s = s' := by
  have h1 := C49_text_canonical hS he hd h
  rw [C49_text_canonical hS he hd h'] at h1
  exact (Res.ok.inj h1).symm

/-- Non-vacuity: the text of a concrete key parses, and is the text of what it parses to. -/
theorem C49_text_case : ∃ s k, newExtendedKeyFromString toyStr s .koblitz = .ok k ∧ k.serialize toyStr = .ok s := by
  obtain ⟨s, h1, h2⟩ := C49_round_trip toyStr_codec exKey_ok
  exact ⟨s, _, h2, C49_text_canonical toyStr_codec rfl rfl h2⟩

end Tss.Ckd
