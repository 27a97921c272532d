import Verif.Model.Ecdsa
import Verif.Lemmas.Go
import Verif.Props.SecpPubkey
import Mathlib.Data.List.GetD
/-
C85: signatures as byte strings (DER and BER).
-/
namespace Tss.Secp
open Tss

namespace spec

/-- The contents of a DER INTEGER holding the non-negative number n: the shortest non-empty big-endian string for n whose first bit is
zero. -/
def IsDerInt (b : Bytes) (n : Nat) : Prop :=
  beNat b = n ∧ (∃ f t, b = f :: t ∧ f < 128) ∧ ∀ f t, beNat (f :: t) = n → f < 128 → b.length ≤ (f :: t).length

/-- SEQUENCE { INTEGER, INTEGER } with the given contents, all lengths in one byte. -/
def seq2 (R S : Bytes) : Bytes :=
  [0x30, UInt8.ofNat (4 + R.length + S.length), 0x02, UInt8.ofNat R.length] ++ R ++ [0x02, UInt8.ofNat S.length] ++ S

end spec
open spec

section res
variable {ε α β : Type}

theorem rbind_ok {x : Res ε α} {f : α → Res ε β} {b : β} : (x >>= f) = .ok b ↔ ∃ a, x = .ok a ∧ f a = .ok b := by
  cases x with
  | ok a => exact ⟨fun h => ⟨a, rfl, h⟩, fun ⟨a', e, h⟩ => by cases e; exact h⟩
  | err e => exact ⟨fun h => (by cases h), fun ⟨a', e, h⟩ => by cases e⟩
  | panic => exact ⟨fun h => (by cases h), fun ⟨a', e, h⟩ => by cases e⟩

theorem rbind_panic {x : Res ε α} {f : α → Res ε β} : (x >>= f) = .panic ↔ x = .panic ∨ ∃ a, x = .ok a ∧ f a = .panic := by
  cases x with
  | ok a => exact ⟨fun h => .inr ⟨a, rfl, h⟩, fun h => by
      rcases h with h | ⟨a', e, h⟩
      · cases h
      · cases e; exact h⟩
  | err e => exact ⟨fun h => (by cases h), fun h => by
      rcases h with h | ⟨a', e', h⟩
      · cases h
      · cases e'⟩
  | panic => exact ⟨fun _ => .inl rfl, fun _ => rfl⟩

theorem ite_err_ok {c : Prop} [Decidable c] {e : ε} {x : Res ε α} {a : α} :
    (if c then Res.err e else x) = .ok a ↔ ¬c ∧ x = .ok a := by
  split
  · exact ⟨fun h => (by cases h), fun h => absurd ‹c› h.1⟩
  · exact ⟨fun h => ⟨‹_›, h⟩, fun h => h.2⟩

theorem ite_err_panic {c : Prop} [Decidable c] {e : ε} {x : Res ε α} :
    (if c then Res.err e else x) = .panic ↔ ¬c ∧ x = .panic := by
  split
  · exact ⟨fun h => (by cases h), fun h => absurd ‹c› h.1⟩
  · exact ⟨fun h => ⟨‹_›, h⟩, fun h => h.2⟩

theorem byteAt_ok {b : Bytes} {i : Nat} {x : UInt8} : (byteAt b i : Res ε UInt8) = .ok x ↔ b[i]? = some x := by
  unfold byteAt Res.ofOption
  cases b[i]? <;> simp

theorem byteAt_panic {b : Bytes} {i : Nat} : (byteAt b i : Res ε UInt8) = .panic ↔ b.length ≤ i := by
  unfold byteAt Res.ofOption
  rw [← List.getElem?_eq_none_iff]
  cases b[i]? <;> simp

theorem sliceOf_ok {b c : Bytes} {i j : Nat} : (sliceOf b i j : Res ε Bytes) = .ok c ↔ (i ≤ j ∧ j ≤ b.length) ∧ c = (b.take j).drop i := by
  unfold sliceOf
  split
  · simp [*, eq_comm]
  · simp [*]

theorem sliceOf_panic {b : Bytes} {i j : Nat} : (sliceOf b i j : Res ε Bytes) = .panic ↔ ¬(i ≤ j ∧ j ≤ b.length) := by
  unfold sliceOf
  split <;> simp [*]

theorem pure_ok {a b : α} : (pure a : Res ε α) = .ok b ↔ a = b := by
  change Res.ok a = Res.ok b ↔ _
  simp

theorem pure_panic {a : α} : ¬(pure a : Res ε α) = .panic := by
  change ¬Res.ok a = Res.panic
  simp

end res

/-- The first bit of a byte. -/
theorem top_bit (f : UInt8) : f &&& 0x80 = 0x80 ↔ ¬f < 128 :=
  Ckd.uint8_all (fun f => f &&& 0x80 = 0x80 ↔ ¬f < 128) (by decide +kernel) f

theorem top_bit' (f : UInt8) : f &&& 0x80 ≠ 0 ↔ ¬f < 128 :=
  Ckd.uint8_all (fun f => f &&& 0x80 ≠ 0 ↔ ¬f < 128) (by decide +kernel) f

/-- What the padding check accepts. -/
def Canon (b : Bytes) : Prop := ∃ f t, b = f :: t ∧ f < 128 ∧ (f = 0 → ∀ g u, t = g :: u → ¬g < 128)

theorem canonicalPadding_fine {b : Bytes} : canonicalPadding b = .ok .fine ↔ Canon b := by
  unfold canonicalPadding Canon
  match b with
  | [] => constructor
          · intro h; cases h
          · rintro ⟨f, t, h, -⟩; cases h
  | f :: t =>
    have e0 : (byteAt (f :: t) 0 : Res SigErr UInt8) = .ok f := rfl
    rw [e0]
    change (if _ then _ else _) = _ ↔ _
    by_cases h1 : f &&& 0x80 = 0x80
    · rw [if_pos h1]
      rw [top_bit] at h1
      constructor
      · intro h; cases h
      · rintro ⟨f', t', h, h', -⟩; cases h; exact absurd h' h1
    · rw [if_neg h1]
      rw [top_bit, not_not] at h1
      match t with
      | [] =>
        rw [if_neg (by simp)]
        exact ⟨fun _ => ⟨f, [], rfl, h1, fun _ g u h => by cases h⟩, fun _ => rfl⟩
      | g :: u =>
        by_cases h2 : f = 0
        · rw [if_pos ⟨by simp, h2⟩]
          have e1 : (byteAt (f :: g :: u) 1 : Res SigErr UInt8) = .ok g := rfl
          rw [e1]
          change (if _ then _ else _) = _ ↔ _
          by_cases h3 : g &&& 0x80 = 0x80
          · rw [if_neg (not_not_intro h3)]
            rw [top_bit] at h3
            exact ⟨fun _ => ⟨f, g :: u, rfl, h1, fun _ g' u' h => by cases h; exact h3⟩, fun _ => rfl⟩
          · rw [if_pos h3]
            rw [top_bit, not_not] at h3
            constructor
            · intro h; cases h
            · rintro ⟨f', t', h, h', h''⟩; cases h; exact absurd h3 (h'' h2 g u rfl)
        · rw [if_neg (by rintro ⟨-, h⟩; exact h2 h)]
          exact ⟨fun _ => ⟨f, g :: u, rfl, h1, fun h => absurd h h2⟩, fun _ => rfl⟩

theorem canonicalPadding_panic {b : Bytes} : canonicalPadding b = .panic ↔ b = [] := by
  unfold canonicalPadding
  match b with
  | [] => exact ⟨fun _ => rfl, fun _ => rfl⟩
  | f :: t =>
    have e0 : (byteAt (f :: t) 0 : Res SigErr UInt8) = .ok f := rfl
    rw [e0]
    change (if _ then _ else _) = _ ↔ _
    by_cases h1 : f &&& 0x80 = 0x80
    · rw [if_pos h1]
      exact ⟨fun h => (by cases h), fun h => by cases h⟩
    · rw [if_neg h1]
      match t with
      | [] =>
        rw [if_neg (by simp)]
        exact ⟨fun h => (by cases h), fun h => by cases h⟩
      | g :: u =>
        by_cases h2 : f = 0
        · rw [if_pos ⟨by simp, h2⟩]
          have e1 : (byteAt (f :: g :: u) 1 : Res SigErr UInt8) = .ok g := rfl
          rw [e1]
          change (if _ then _ else _) = _ ↔ _
          by_cases h3 : g &&& 0x80 = 0x80
          · rw [if_neg (not_not_intro h3)]
            exact ⟨fun h => (by cases h), fun h => by cases h⟩
          · rw [if_pos h3]
            exact ⟨fun h => (by cases h), fun h => by cases h⟩
        · rw [if_neg (by rintro ⟨-, h⟩; exact h2 h)]
          exact ⟨fun h => (by cases h), fun h => by cases h⟩

theorem checkPad_ok {der : Bool} {b : Bytes} {e1 e2 : SigErr} {u : Unit} : checkPad der b e1 e2 = .ok u ↔ (der = true → Canon b) := by
  unfold checkPad
  cases der with
  | false => simp
  | true =>
    rw [if_pos rfl, rbind_ok]
    constructor
    · rintro ⟨a, ha, h⟩ -
      rw [← canonicalPadding_fine, ha]
      cases a with
      | fine => rfl
      | negative => cases h
      | excessive => cases h
    · intro h
      exact ⟨.fine, canonicalPadding_fine.2 (h rfl), rfl⟩

theorem checkPad_panic {der : Bool} {b : Bytes} {e1 e2 : SigErr} (hb : b ≠ []) : checkPad der b e1 e2 ≠ .panic := by
  unfold checkPad
  cases der with
  | false => simp
  | true =>
    rw [if_pos rfl, Ne, rbind_panic]
    rintro (h | ⟨a, ha, h⟩)
    · exact hb (canonicalPadding_panic.1 h)
    · cases a <;> cases h

theorem u8_len {n : Nat} (h : n < 256) : (UInt8.ofNat n).toNat = n := by
  rw [UInt8.toNat_ofNat']; omega

theorem u8_of {x : UInt8} {n : Nat} (h : x.toNat = n) : x = UInt8.ofNat n := by
  rw [← h]; simp

theorem byte_split {b : Bytes} {i : Nat} {x : UInt8} (h : b[i]? = some x) : b.drop i = x :: b.drop (i + 1) := by
  obtain ⟨hi, rfl⟩ := List.getElem?_eq_some_iff.1 h
  exact List.drop_eq_getElem_cons hi

/-- What `parseSig` accepts, with either strictness. -/
theorem parse_iff (b : Bytes) (n : Int) (der : Bool) (r s : Int) :
    parseSig b n der = .ok (r, s) ↔ ∃ R S t, b = seq2 R S ++ t ∧ R ≠ [] ∧ S ≠ [] ∧ 6 + R.length + S.length ≤ 255 ∧
      (der = true → Canon R ∧ Canon S) ∧ r = beNat R ∧ s = beNat S ∧ 1 ≤ r ∧ r < n ∧ 1 ≤ s ∧ s < n := by
  unfold parseSig
  simp only [ite_err_ok, rbind_ok, byteAt_ok, sliceOf_ok, checkPad_ok, pure_ok]
  constructor
  · rintro ⟨h8, x0, e0, hx0, x1, e1, htot, sig, ⟨-, rfl⟩, x2, e2, hx2, x3, e3, hr, R, ⟨⟨-, hRl⟩, rfl⟩, -, hcR, x4, e4, hx4, x5, e5, hs,
      S, ⟨⟨-, hSl⟩, rfl⟩, -, hcS, hfin, hR0, hS0, hRn, hSn, hrs⟩
    cases hrs
    rw [not_or] at htot hr hs
    have ht1 : (x1 + 2).toNat ≤ b.length := by omega
    rw [List.drop_zero] at e2 e3 e4 e5 hcR hcS hfin hr hs hRl hSl hR0 hS0 hRn hSn
    have hlen : (b.take (x1 + 2).toNat).length = (x1 + 2).toNat := by rw [List.length_take]; omega
    have hx1 : (x1 + 2).toNat = x1.toNat + 2 := by
      have := x1.toNat_lt
      have h2 := htot.2
      have two : (2 : UInt8).toNat = 2 := rfl
      rw [UInt8.toNat_add, two] at h2 ⊢
      omega
    have e0' : (b.take (x1 + 2).toNat)[0]? = some x0 := by rw [List.getElem?_take_of_lt (by omega)]; exact e0
    have e1' : (b.take (x1 + 2).toNat)[1]? = some x1 := by rw [List.getElem?_take_of_lt (by omega)]; exact e1
    have hb : b = b.take (x1 + 2).toNat ++ b.drop (x1 + 2).toNat := (List.take_append_drop _ _).symm
    generalize b.take (x1 + 2).toNat = g at *
    generalize b.drop (x1 + 2).toNat = t at hb
    rw [hb]
    simp only [not_not] at hx0 hx2 hx4
    subst hx0 hx2 hx4
    rw [hx1] at hlen
    rw [not_not] at hfin
    have d0 := byte_split e0'
    have d1 := byte_split e1'
    have d2 := byte_split e2
    have d3 := byte_split e3
    have d4 := byte_split e4
    have d5 := byte_split e5
    refine ⟨(g.take (4 + x3.toNat)).drop 4, (g.take (4 + x3.toNat + 2 + x5.toNat)).drop (4 + x3.toNat + 2), t, ?_, ?_, ?_, ?_,
      fun h => ⟨hcR h, hcS h⟩, by rw [List.drop_zero], by rw [List.drop_zero], ?_, ?_, ?_, ?_⟩
    · congr 1
      have l1 : ((g.take (4 + x3.toNat)).drop 4).length = x3.toNat := by rw [List.length_drop, List.length_take]; omega
      have l2 : ((g.take (4 + x3.toNat + 2 + x5.toNat)).drop (4 + x3.toNat + 2)).length = x5.toNat := by
        rw [List.length_drop, List.length_take]; omega
      unfold seq2
      rw [l1, l2, hfin, List.take_length]
      have a1 : x1 = UInt8.ofNat (4 + x3.toNat + x5.toNat) := u8_of (by omega)
      have a3 : x3 = UInt8.ofNat x3.toNat := u8_of rfl
      have a5 : x5 = UInt8.ofNat x5.toNat := u8_of rfl
      rw [← a1, ← a3, ← a5]
      have k : g.drop 4 = (g.take (4 + x3.toNat)).drop 4 ++ g.drop (4 + x3.toNat) := by
        have := congrArg (List.drop 4) (List.take_append_drop (4 + x3.toNat) g)
        rw [List.drop_append_of_le_length (by rw [List.length_take]; omega)] at this
        exact this.symm
      rw [d4, d5] at k
      rw [List.drop_zero] at d0
      rw [d1, d2, d3, k] at d0
      conv_lhs => rw [d0]
      simp
    · intro h
      have := congrArg List.length h
      rw [List.length_drop, List.length_take] at this
      simp at this; omega
    · intro h
      have := congrArg List.length h
      rw [List.length_drop, List.length_take] at this
      simp at this; omega
    · rw [List.length_drop, List.length_take, List.length_drop, List.length_take]
      have := (x1 + 2).toNat_lt
      omega
    all_goals (rw [List.drop_zero]; omega)
  · rintro ⟨R, S, t, rfl, hR, hS, hlen, hc, rfl, rfl, h1, h2, h3, h4⟩
    have lR : 0 < R.length := List.length_pos_iff.2 hR
    have lS : 0 < S.length := List.length_pos_iff.2 hS
    have hsl : (seq2 R S).length = 6 + R.length + S.length := by unfold seq2; simp; omega
    have htot : (UInt8.ofNat (4 + R.length + S.length) + 2).toNat = 6 + R.length + S.length := by
      have two : (2 : UInt8).toNat = 2 := rfl
      rw [UInt8.toNat_add, u8_len (by omega), two]
      omega
    have rl : (UInt8.ofNat R.length).toNat = R.length := u8_len (by omega)
    have sl : (UInt8.ofNat S.length).toNat = S.length := u8_len (by omega)
    have ht : (List.take (6 + R.length + S.length) (seq2 R S ++ t)).drop 0 = seq2 R S := by
      rw [← hsl, List.take_left, List.drop_zero]
    refine ⟨by rw [List.length_append]; omega, 0x30, by unfold seq2; simp, by simp, UInt8.ofNat (4 + R.length + S.length), rfl, ?_, _,
      ⟨⟨by omega, ?_⟩, rfl⟩, ?_⟩
    · rw [htot, List.length_append]; omega
    · rw [htot, List.length_append]; omega
    rw [htot, ht, hsl]
    refine ⟨2, by unfold seq2; simp, by simp, UInt8.ofNat R.length, by unfold seq2; simp, ?_, _, ⟨⟨by omega, by omega⟩, rfl⟩, (), ?_⟩
    · rw [rl]; omega
    have hR' : List.drop 4 (List.take (4 + (UInt8.ofNat R.length).toNat) (seq2 R S)) = R := by
      rw [rl]
      unfold seq2
      generalize UInt8.ofNat (4 + R.length + S.length) = x
      have : 4 + R.length = ([0x30, x, 0x02, UInt8.ofNat R.length] ++ R).length := by simp; omega
      rw [List.append_assoc ([0x30, x, 0x02, UInt8.ofNat R.length] ++ R), this, List.take_left]
      rfl
    have hg : ∀ i, (seq2 R S)[4 + R.length + i]? = ([0x02, UInt8.ofNat S.length] ++ S)[i]? := by
      intro i
      unfold seq2
      rw [List.append_assoc ([0x30, UInt8.ofNat (4 + R.length + S.length), 0x02, UInt8.ofNat R.length] ++ R),
        List.getElem?_append_right (by simp; omega)]
      congr 1
      simp; omega
    have hS' : List.drop (4 + R.length + 2) (List.take (4 + R.length + 2 + S.length) (seq2 R S)) = S := by
      rw [show 4 + R.length + 2 + S.length = (seq2 R S).length by omega, List.take_length]
      unfold seq2
      generalize UInt8.ofNat (4 + R.length + S.length) = x
      have : 4 + R.length + 2 = ([0x30, x, 0x02, UInt8.ofNat R.length] ++ R ++ [0x02, UInt8.ofNat S.length]).length := by simp; omega
      rw [this, List.drop_left]
    rw [hR']
    refine ⟨fun h => (hc h).1, 2, ?_, by simp, UInt8.ofNat S.length, ?_, ?_, S, ⟨⟨by omega, ?_⟩, ?_⟩, (), fun h => (hc h).2, ?_, by omega,
      by omega, by omega, by omega, rfl⟩
    · rw [rl]; exact hg 0
    · rw [rl]; exact hg 1
    · rw [rl, sl]; omega
    · rw [rl, sl]; omega
    · rw [rl, sl, hS']
    · rw [rl, sl]; omega

theorem lt128 (f : UInt8) : f < 128 ↔ f.toNat < 128 := UInt8.lt_iff_toNat_lt

theorem u8_zero (f : UInt8) : f = 0 ↔ f.toNat = 0 := by
  rw [← UInt8.toNat_inj]; rfl

theorem beNat_cons_bounds (f : UInt8) (t : Bytes) :
    f.toNat * 256 ^ t.length ≤ beNat (f :: t) ∧ beNat (f :: t) < (f.toNat + 1) * 256 ^ t.length := by
  rw [beNat_cons]
  have := beNat_lt t
  constructor
  · omega
  · rw [add_mul]; omega

theorem canon_iff (b : Bytes) : Canon b ↔ IsDerInt b (beNat b) := by
  constructor
  · rintro ⟨f, t, rfl, hf, h0⟩
    refine ⟨rfl, ⟨f, t, rfl, hf⟩, ?_⟩
    intro f' t' hv hf'
    rw [lt128] at hf'
    by_contra hlen
    simp only [List.length_cons, not_le] at hlen
    have h1 := (beNat_cons_bounds f' t').2
    have h2 : (f'.toNat + 1) * 256 ^ t'.length ≤ 128 * 256 ^ t'.length := Nat.mul_le_mul_right _ (by omega)
    by_cases hz : f = 0
    · have h0 := h0 hz
      cases t with
      | nil => simp at hlen
      | cons g u =>
        have hg := h0 g u rfl
        rw [lt128] at hg
        have h3 := (beNat_cons_bounds g u).1
        have h4 : beNat (f :: g :: u) = beNat (g :: u) := by rw [beNat_cons, hz]; simp
        have h5 : 128 * 256 ^ u.length ≤ g.toNat * 256 ^ u.length := Nat.mul_le_mul_right _ (by omega)
        have h6 : 256 ^ t'.length ≤ 256 ^ u.length := Nat.pow_le_pow_right (by decide) (by simp at hlen; omega)
        omega
    · have h3 := (beNat_cons_bounds f t).1
      rw [u8_zero] at hz
      have h5 : 1 * 256 ^ t.length ≤ f.toNat * 256 ^ t.length := Nat.mul_le_mul_right _ (by omega)
      have h6 : 256 ^ (t'.length + 1) ≤ 256 ^ t.length := Nat.pow_le_pow_right (by decide) (by omega)
      rw [pow_succ] at h6
      omega
  · rintro ⟨-, ⟨f, t, rfl, hf⟩, hm⟩
    refine ⟨f, t, rfl, hf, ?_⟩
    rintro rfl g u rfl hg
    have := hm g u (by rw [beNat_cons 0]; simp) hg
    simp at this

theorem isDerInt_unique {b b' : Bytes} {n : Nat} (h : IsDerInt b n) (h' : IsDerInt b' n) : b = b' := by
  obtain ⟨v, ⟨f, t, rfl, hf⟩, hm⟩ := h
  obtain ⟨v', ⟨f', t', rfl, hf'⟩, hm'⟩ := h'
  exact beNat_inj _ _ (le_antisymm (hm f' t' v' hf') (hm' f t v hf)) (v.trans v'.symm)

theorem natBE_head (n : Nat) : (natBE n).head? ≠ some 0 := by
  have h := natBE_beNat (natBE n)
  rw [beNat_natBE] at h
  rw [h]
  exact stripZeros_head _

/-- C85: `canonicalizeInt` writes the DER contents of the absolute value. -/
theorem canonicalizeInt_der (v : Int) : IsDerInt (canonicalizeInt v) v.natAbs := by
  have hb : beNat (canonicalizeInt v) = v.natAbs ∧ Canon (canonicalizeInt v) := by
    unfold canonicalizeInt
    simp only
    have hv := beNat_intBytes v
    have hh : (intBytes v).head? ≠ some 0 := natBE_head _
    generalize intBytes v = b at hv hh
    match b with
    | [] =>
      refine ⟨?_, ?_⟩
      · rw [← hv]; rfl
      · exact ⟨0, [], rfl, by decide, fun _ g u h => by cases h⟩
    | f :: t =>
      rw [if_neg (show ¬(f :: t).length = 0 by simp)]
      by_cases hf : f &&& 0x80 ≠ 0
      · rw [if_pos (show (f :: t).headD 0 &&& 0x80 ≠ 0 from hf)]
        rw [top_bit'] at hf
        refine ⟨by rw [← hv, beNat_cons 0]; simp, 0, f :: t, rfl, by decide, ?_⟩
        intro _ g u h
        cases h; exact hf
      · rw [if_neg (show ¬(f :: t).headD 0 &&& 0x80 ≠ 0 from hf)]
        rw [top_bit', not_not] at hf
        refine ⟨hv, f, t, rfl, hf, ?_⟩
        rintro rfl
        exact absurd rfl hh
  have := (canon_iff _).1 hb.2
  rwa [hb.1] at this

theorem derInt_length {b : Bytes} {n k : Nat} (h : IsDerInt b n) (hn : n < 256 ^ k) : 1 ≤ b.length ∧ b.length ≤ k + 1 := by
  obtain ⟨v, ⟨f, t, rfl, hf⟩, hm⟩ := h
  refine ⟨by simp, ?_⟩
  have hl := natBE_length_le n k hn
  have := hm 0 (natBE n) (by rw [beNat_cons]; simp) (by decide)
  simp only [List.length_cons] at this ⊢
  omega

/-! ### C85 -/

/-- C85: the parsers never panic, on any bytes and for any order. -/
theorem C85_never_panics (b : Bytes) (n : Int) (der : Bool) : parseSig b n der ≠ .panic := by
  unfold parseSig
  intro h
  simp only [ite_err_panic, rbind_panic, byteAt_panic, byteAt_ok, sliceOf_panic, sliceOf_ok, pure_panic, checkPad_ok] at h
  obtain ⟨h8, h | ⟨x0, e0, hx0, h⟩⟩ := h
  · omega
  rcases h with h | ⟨x1, e1, htot, h⟩
  · omega
  rw [not_or] at htot
  rcases h with h | ⟨sig, ⟨-, rfl⟩, h⟩
  · exact h ⟨by omega, by omega⟩
  rw [List.drop_zero] at h
  have hlen : (b.take (x1 + 2).toNat).length = (x1 + 2).toNat := by rw [List.length_take]; omega
  generalize b.take (x1 + 2).toNat = g at h hlen
  rcases h with h | ⟨x2, e2, hx2, h⟩
  · omega
  rcases h with h | ⟨x3, e3, hr, h⟩
  · omega
  rw [not_or] at hr
  rcases h with h | ⟨R, ⟨⟨-, hRl⟩, hR⟩, h⟩
  · exact h ⟨by omega, by omega⟩
  have lR : R.length = x3.toNat := by rw [hR, List.length_drop, List.length_take]; omega
  rcases h with h | ⟨-, hcR, h⟩
  · exact checkPad_panic (by rintro rfl; simp at lR; omega) h
  rcases h with h | ⟨x4, e4, hx4, h⟩
  · omega
  rcases h with h | ⟨x5, e5, hs, h⟩
  · omega
  rw [not_or] at hs
  rcases h with h | ⟨S, ⟨⟨-, hSl⟩, hS⟩, h⟩
  · exact h ⟨by omega, by omega⟩
  have lS : S.length = x5.toNat := by rw [hS, List.length_drop, List.length_take]; omega
  rcases h with h | ⟨-, hcS, h⟩
  · exact checkPad_panic (by rintro rfl; simp at lS; omega) h
  exact h.2.2.2.2.2

/-- C85: `ParseSignature` accepts exactly a sequence of two non-empty integers, read as unsigned numbers with any leading zeros, in
[1, n), of at most 255 bytes in all - followed by anything, which is ignored. -/
theorem C85_ber_iff (b : Bytes) (n : Int) (r s : Int) :
    parseSig b n false = .ok (r, s) ↔ ∃ R S t, b = seq2 R S ++ t ∧ R ≠ [] ∧ S ≠ [] ∧ 6 + R.length + S.length ≤ 255 ∧
      r = beNat R ∧ s = beNat S ∧ 1 ≤ r ∧ r < n ∧ 1 ≤ s ∧ s < n := by
  rw [parse_iff]
  constructor
  · rintro ⟨R, S, t, h1, h2, h3, h4, -, h⟩; exact ⟨R, S, t, h1, h2, h3, h4, h⟩
  · rintro ⟨R, S, t, h1, h2, h3, h4, h⟩; exact ⟨R, S, t, h1, h2, h3, h4, fun h => (by cases h), h⟩

/-- C85: `ParseDERSignature` accepts exactly the DER encodings of pairs in [1, n) of at most 255 bytes - followed by anything, which
is ignored. -/
theorem C85_der_iff (b : Bytes) (n : Int) (r s : Int) :
    parseSig b n true = .ok (r, s) ↔ ∃ R S t, b = seq2 R S ++ t ∧ IsDerInt R r.toNat ∧ IsDerInt S s.toNat ∧
      (seq2 R S).length ≤ 255 ∧ 1 ≤ r ∧ r < n ∧ 1 ≤ s ∧ s < n := by
  rw [parse_iff]
  have hsl : ∀ R S : Bytes, (seq2 R S).length = 6 + R.length + S.length := by intro R S; unfold seq2; simp; omega
  constructor
  · rintro ⟨R, S, t, h1, h2, h3, h4, hc, rfl, rfl, h⟩
    obtain ⟨c1, c2⟩ := hc rfl
    exact ⟨R, S, t, h1, (canon_iff R).1 c1, (canon_iff S).1 c2, by rw [hsl]; exact h4, h⟩
  · rintro ⟨R, S, t, h1, c1, c2, h4, h⟩
    have e1 := c1.1
    have e2 := c2.1
    refine ⟨R, S, t, h1, ?_, ?_, by rw [← hsl]; exact h4, fun _ => ⟨(canon_iff R).2 (by rw [e1]; exact c1),
      (canon_iff S).2 (by rw [e2]; exact c2)⟩, by omega, by omega, h⟩
    · obtain ⟨-, ⟨f, t, e, -⟩, -⟩ := c1; rw [e]; simp
    · obtain ⟨-, ⟨f, t, e, -⟩, -⟩ := c2; rw [e]; simp

/-- C85: DER is a special case of BER, with the same result. -/
theorem C85_der_ber (b : Bytes) (n : Int) (r s : Int) (h : parseSig b n true = .ok (r, s)) : parseSig b n false = .ok (r, s) := by
  rw [parse_iff] at h ⊢
  obtain ⟨R, S, t, h1, h2, h3, h4, -, h⟩ := h
  exact ⟨R, S, t, h1, h2, h3, h4, fun h => (by cases h), h⟩

theorem serialize_eq (r s : Int) : sigSerialize r s = seq2 (canonicalizeInt r) (canonicalizeInt (if s > halfOrder then N - s else s)) := by
  unfold sigSerialize seq2
  simp only
  have : ∀ a b : Nat, 6 + a + b - 2 = 4 + a + b := by omega
  rw [this]

/-- C85: the bytes of a signature with r, s in [1, N): the DER encoding of r and of the lower of s and N - s; 8 to 72 bytes;
both parsers return them, and ignore what follows. -/
theorem C85_serialize (r s : Int) (hr : 1 ≤ r ∧ r < N) (hs : 1 ≤ s ∧ s < N) :
    (∃ R S, sigSerialize r s = seq2 R S ∧ IsDerInt R r.toNat ∧ IsDerInt S (min s (N - s)).toNat ∧ R.length ≤ 33 ∧ S.length ≤ 33) ∧
    ∀ t der, parseSig (sigSerialize r s ++ t) N der = .ok (r, min s (N - s)) := by
  have hN : N < 256 ^ 32 := by decide
  have hlow : (if s > halfOrder then N - s else s) = min s (N - s) := by
    unfold halfOrder
    split
    · rw [min_eq_right (by omega)]
    · rw [min_eq_left (by omega)]
  have hm : 1 ≤ min s (N - s) ∧ min s (N - s) < N := by
    constructor
    · rw [le_min_iff]; omega
    · exact lt_of_le_of_lt (min_le_left _ _) hs.2
  rw [serialize_eq, hlow]
  generalize min s (N - s) = m at *
  have d1 := canonicalizeInt_der r
  have d2 := canonicalizeInt_der m
  have a1 : r.natAbs = r.toNat := by omega
  have a2 : m.natAbs = m.toNat := by omega
  rw [a1] at d1
  rw [a2] at d2
  have l1 := derInt_length (k := 32) d1 (by omega)
  have l2 := derInt_length (k := 32) d2 (by omega)
  refine ⟨⟨_, _, rfl, d1, d2, l1.2, l2.2⟩, ?_⟩
  intro t der
  have hd : parseSig (seq2 (canonicalizeInt r) (canonicalizeInt m) ++ t) N true = .ok (r, m) := by
    rw [C85_der_iff]
    refine ⟨_, _, t, rfl, d1, d2, ?_, hr.1, hr.2, hm.1, hm.2⟩
    unfold seq2; simp; omega
  cases der with
  | true => exact hd
  | false => exact C85_der_ber _ _ _ _ hd

/-- C85: a signature and its mirror image have the same bytes, and that is the only coincidence. -/
theorem C85_serialize_injective (r s r' s' : Int) (hr : 1 ≤ r ∧ r < N) (hs : 1 ≤ s ∧ s < N) (hr' : 1 ≤ r' ∧ r' < N)
    (hs' : 1 ≤ s' ∧ s' < N) : sigSerialize r s = sigSerialize r' s' ↔ r = r' ∧ (s = s' ∨ s = N - s') := by
  constructor
  · intro h
    have h1 := (C85_serialize r s hr hs).2 [] true
    have h2 := (C85_serialize r' s' hr' hs').2 [] true
    rw [h, h2] at h1
    injection h1 with h1
    injection h1 with e' e
    refine ⟨e'.symm, ?_⟩
    rw [min_def, min_def] at e
    split at e <;> split at e <;> omega
  · rintro ⟨rfl, rfl | rfl⟩
    · rfl
    · rw [serialize_eq, serialize_eq]
      have : (if N - s' > halfOrder then N - (N - s') else N - s') = if s' > halfOrder then N - s' else s' := by
        have : N % 2 = 1 := by decide
        unfold halfOrder
        split <;> split <;> omega
      rw [this]

/-- C85: a DER string the parser accepts and whose s is low is the output of `Serialize` followed by the ignored bytes: no two
different strings without trailing bytes are accepted as the same signature. -/
theorem C85_unique (b : Bytes) (r s : Int) (h : parseSig b N true = .ok (r, s)) (hs : s ≤ N - s) :
    ∃ t, b = sigSerialize r s ++ t := by
  rw [C85_der_iff] at h
  obtain ⟨R, S, t, h1, c1, c2, h4, hr1, hr2, hs1, hs2⟩ := h
  obtain ⟨⟨R', S', e, d1, d2, -⟩, -⟩ := C85_serialize r s ⟨hr1, hr2⟩ ⟨hs1, hs2⟩
  rw [min_eq_left hs] at d2
  refine ⟨t, ?_⟩
  rw [e, h1, isDerInt_unique c1 d1, isDerInt_unique c2 d2]

/-- C85, deviation: with a high s the string differs from what `Serialize` gives back: parsing and serializing does not preserve it. -/
theorem C85_high_s (b : Bytes) (r s : Int) (h : parseSig b N true = .ok (r, s)) (hs : N - s < s) :
    ∀ t, b ≠ sigSerialize r s ++ t := by
  rintro t rfl
  have h' := h
  rw [C85_der_iff] at h'
  obtain ⟨R, S, t', h1, c1, c2, h4, hr1, hr2, hs1, hs2⟩ := h'
  rw [(C85_serialize r s ⟨hr1, hr2⟩ ⟨hs1, hs2⟩).2 t true, min_eq_right hs.le] at h
  injection h with h
  injection h with _ h
  omega

/-- C85: an instance: r = 128 (padded with a zero byte), s = N - 1 (replaced by 1), two ignored bytes. -/
theorem C85_example :
    sigSerialize 128 (N - 1) = [0x30, 0x07, 0x02, 0x02, 0x00, 0x80, 0x02, 0x01, 0x01] ∧
    parseSig [0x30, 0x07, 0x02, 0x02, 0x00, 0x80, 0x02, 0x01, 0x01, 0xff, 0xff] N true = .ok (128, 1) ∧
    parseSig [0x30, 0x06, 0x02, 0x01, 0x80, 0x02, 0x01, 0x01] N true = .err .rNegative ∧
    parseSig [0x30, 0x06, 0x02, 0x01, 0x80, 0x02, 0x01, 0x01] N false = .ok (128, 1) := by
  decide +kernel

end Tss.Secp
