import Verif.Props.UnbiasedSum
import Verif.Props.AliceUtils
/-
C89 for the random numbers of crypto/alice/utils: RandomInt, RandomAbsoluteRangeInt and RandomCoprimeInt.
-/
namespace Tss.Common
open Tss Alice

namespace spec

/-- The byte strings of length ℓ that a draw of alice/utils uses up exactly, with result v. -/
def drawnBy (draw : Bytes → Res AErr (Int × Bytes)) (l : Nat) (v : Int) : Set Bytes := {t | t.length = l ∧ draw t = .ok (v, [])}

end spec

/-- How rand.Int returns the result of its loop. -/
def ofLoop : Option (Nat × Bytes) → Res Unit (Int × Bytes)
  | some (x, rest) => .ok ((x : Int), rest)
  | none => .err ()

/-- rand.Int uses up a tape exactly when the tape is a sequence of rejected chunks and an accepted one. -/
theorem randInt_drawn {n : Nat} (hn : 2 ≤ n) (v : Int) (t : Bytes) :
    randInt (n : Int) t = .ok (v, []) ↔
      ∃ w : Nat, v = w ∧ Drawn ((bitLen ((n : Int) - 1) + 7) / 8) (2 ^ bitLen ((n : Int) - 1)) (fun x => decide (x < n)) t w := by
  have hm : ((n : Int) - 1) = ((n - 1 : Nat) : Int) := by omega
  have hbl : bitLen ((n : Int) - 1) ≠ 0 := by
    rw [hm, bitLen_nat]
    have : 0 < (n - 1).size := Nat.size_pos.mpr (by omega)
    omega
  have hpos : ¬(n : Int) ≤ 0 := by omega
  have hrand : ∀ t : Bytes, randInt (n : Int) t = ofLoop (randIntLoop n ((bitLen ((n : Int) - 1) + 7) / 8)
        (if bitLen ((n : Int) - 1) % 8 = 0 then 8 else bitLen ((n : Int) - 1) % 8) (t.length + 1) t) := by
    intro t
    unfold randInt
    rw [if_neg hpos]
    simp only
    rw [if_neg hbl, Int.toNat_natCast]
    rfl
  rw [hrand]
  generalize bitLen ((n : Int) - 1) = bl at *
  generalize hb' : (if bl % 8 = 0 then 8 else bl % 8) = b
  have hb8 : b ≤ 8 := by rw [← hb']; split <;> omega
  obtain ⟨k, hk'⟩ : ∃ k, (bl + 7) / 8 = k + 1 := ⟨(bl + 7) / 8 - 1, by omega⟩
  have hkb : bl = 8 * k + b := by rw [← hb']; split <;> omega
  rw [hk', hkb]
  clear hrand
  induction hl : t.length using Nat.strong_induction_on generalizing t with
  | _ l ih =>
    subst hl
    by_cases hs : t.length < k + 1
    · have : randIntLoop n (k + 1) b (t.length + 1) t = none := by
        unfold randIntLoop readFull
        rw [if_pos hs]
      rw [this]
      constructor
      · intro h; cases h
      · rintro ⟨w, -, h⟩
        obtain ⟨m, hm⟩ := h.len
        have : k + 1 ≤ (m + 1) * (k + 1) := Nat.le_mul_of_pos_left _ (by omega)
        omega
    · obtain ⟨a, u, rfl, ha⟩ : ∃ a u, t = a ++ u ∧ a.length = k + 1 :=
        ⟨t.take (k + 1), t.drop (k + 1), (List.take_append_drop _ t).symm, by rw [List.length_take]; omega⟩
      have ihu := ih u.length (by rw [List.length_append]; omega) u rfl
      have step : randIntLoop n (k + 1) b ((a ++ u).length + 1) (a ++ u) =
          if beNat a % 2 ^ (8 * k + b) < n then some (beNat a % 2 ^ (8 * k + b), u) else randIntLoop n (k + 1) b (u.length + 1) u := by
        conv_lhs => unfold randIntLoop
        rw [readFull_append ha]
        simp only
        rw [mask_val ha hb8, randIntLoop_fuel (by omega) (a ++ u).length (u.length + 1) u (by rw [List.length_append]; omega) (by omega)]
      rw [step]
      simp only [drawn_append ha, decide_eq_true_eq, decide_eq_false_iff_not]
      by_cases hx : beNat a % 2 ^ (8 * k + b) < n
      · rw [if_pos hx]
        simp only [ofLoop, Res.ok.injEq, Prod.mk.injEq]
        constructor
        · rintro ⟨rfl, rfl⟩; exact ⟨_, rfl, .inl ⟨hx, rfl, rfl⟩⟩
        · rintro ⟨w, rfl, ⟨-, rfl, rfl⟩ | ⟨h, -⟩⟩
          · exact ⟨rfl, rfl⟩
          · exact absurd hx h
      · rw [if_neg hx]
        refine Iff.trans ihu ?_
        constructor
        · rintro ⟨w, rfl, h⟩; exact ⟨w, rfl, .inr ⟨hx, h⟩⟩
        · rintro ⟨w, rfl, ⟨h, -, -⟩ | ⟨-, h⟩⟩
          · exact absurd h hx
          · exact ⟨w, rfl, h⟩

theorem randomInt_ok {n : Int} (hn : 1 ≤ n) (t : Bytes) (p : Int × Bytes) : RandomInt n t = .ok p ↔ randInt n t = .ok p := by
  unfold RandomInt
  rw [if_neg (by omega)]
  cases randInt n t with
  | ok q => simp
  | err e => simp
  | panic => simp

/-- C89: every number below n comes out of alice's RandomInt with probability exactly 1/n. -/
theorem C89_alice_probability (n v : Nat) (hv : v < n) :
    HasSum (fun l => (Nat.card (spec.drawnBy (RandomInt n) l v) : ℝ) / 256 ^ l) (1 / (n : ℝ)) := by
  by_cases h1 : n = 1
  · subst h1
    obtain rfl : v = 0 := by omega
    have hr : ∀ t, RandomInt ((1 : Nat) : Int) t = .ok (0, t) := fun t => rfl
    have hc : ∀ l, (Nat.card (spec.drawnBy (RandomInt ((1 : Nat) : Int)) l ((0 : Nat) : Int)) : ℝ) / 256 ^ l = if l = 0 then 1 else 0 := by
      intro l
      have : spec.drawnBy (RandomInt ((1 : Nat) : Int)) l ((0 : Nat) : Int) = if l = 0 then {[]} else ∅ := by
        ext t
        unfold spec.drawnBy
        simp only [hr, Set.mem_ofPred_eq, Res.ok.injEq, Prod.mk.injEq]
        constructor
        · rintro ⟨ht, -, rfl⟩
          rw [if_pos (by simpa using ht.symm)]
          rfl
        · intro h
          split at h
          · next hl => rw [Set.mem_singleton_iff] at h; subst h hl; exact ⟨rfl, rfl, rfl⟩
          · exact absurd h (Set.notMem_empty _)
      rw [this]
      split
      · next h => subst h; simp
      · simp
    simp only [hc]
    have := hasSum_ite_eq (0 : Nat) (1 : ℝ)
    simpa using this
  · have hn : 2 ≤ n := by omega
    have hm : ((n : Int) - 1) = ((n - 1 : Nat) : Int) := by omega
    have hlt : n ≤ 2 ^ bitLen ((n : Int) - 1) := by
      rw [hm]; have := lt_two_pow_bitLen (n - 1); omega
    have hbl : bitLen ((n : Int) - 1) ≠ 0 := by
      rintro h
      rw [h] at hlt; omega
    have hcard : ∀ l, Nat.card (spec.drawnBy (RandomInt n) l v) =
        drawnCard ((bitLen ((n : Int) - 1) + 7) / 8) (2 ^ bitLen ((n : Int) - 1)) (fun x => decide (x < n)) l v := by
      intro l
      refine Nat.card_congr (Equiv.subtypeEquivRight fun t => and_congr_right fun _ => ?_)
      rw [randomInt_ok (by omega), randInt_drawn hn]
      constructor
      · rintro ⟨w, h, hw⟩
        have : v = w := by exact_mod_cast h
        exact this ▸ hw
      · exact fun h => ⟨v, rfl, h⟩
    simp only [hcard]
    have hW : 2 ^ bitLen ((n : Int) - 1) * 2 ^ (8 * ((bitLen ((n : Int) - 1) + 7) / 8) - bitLen ((n : Int) - 1)) =
        256 ^ ((bitLen ((n : Int) - 1) + 7) / 8) := by
      have : (256 : Nat) = 2 ^ 8 := by norm_num
      rw [this, ← pow_mul, ← pow_add]
      congr 1
      omega
    have hfin : Nat.card {x : Fin (2 ^ bitLen ((n : Int) - 1)) // decide ((x : Nat) < n) = true} = n := by
      have e : {x : Fin (2 ^ bitLen ((n : Int) - 1)) // decide ((x : Nat) < n) = true} ≃ Fin n :=
        { toFun := fun x => ⟨x.1.1, by have := x.2; simpa using this⟩
          invFun := fun x => ⟨⟨x.1, x.2.trans_le hlt⟩, by simp⟩
          left_inv := fun x => rfl
          right_inv := fun x => rfl }
      rw [Nat.card_congr e, Nat.card_fin]
    have := drawn_sum (good := fun x => decide (x < n)) (by omega : 0 < (bitLen ((n : Int) - 1) + 7) / 8) (by positivity) hW
      (lt_of_lt_of_le hv hlt) (by simpa using hv)
    rw [hfin] at this
    exact this

/-- C89: every integer from 1−n to n+1 comes out of RandomAbsoluteRangeInt with probability exactly 1/(2n+1). -/
theorem C89_alice_absolute (n : Nat) (v : Int) (h1 : 1 - (n : Int) ≤ v) (h2 : v ≤ n + 1) :
    HasSum (fun l => (Nat.card (spec.drawnBy (RandomAbsoluteRangeInt n) l v) : ℝ) / 256 ^ l) (1 / (2 * n + 1 : ℝ)) := by
  obtain ⟨w, hw⟩ : ∃ w : Nat, v = (w : Int) + 1 - n := ⟨(v + n - 1).toNat, by omega⟩
  have hcard : ∀ l, Nat.card (spec.drawnBy (RandomAbsoluteRangeInt n) l v) = Nat.card (spec.drawnBy (RandomInt ((2 * n + 1 : Nat) : Int)) l w) := by
    intro l
    refine Nat.card_congr (Equiv.subtypeEquivRight fun t => and_congr_right fun _ => ?_)
    unfold RandomAbsoluteRangeInt RandomPositiveInt
    have : (((n : Int) + 1) * 2 - 1) = ((2 * n + 1 : Nat) : Int) := by push_cast; ring
    rw [this]
    cases RandomInt ((2 * n + 1 : Nat) : Int) t with
    | ok p =>
      obtain ⟨x, r⟩ := p
      simp only [Res.ok.injEq, Prod.mk.injEq]
      refine and_congr_left fun _ => ?_
      omega
    | err e => simp
    | panic => simp
  simp only [hcard]
  have := C89_alice_probability (2 * n + 1) w (by omega)
  push_cast at this
  exact this

/-- The coprime loop commutes with exchanging two admissible values. -/
theorem coprime_swap {n v w : Nat} (hv : 2 ≤ v ∧ v < n ∧ Nat.Coprime v n) (hw : 2 ≤ w ∧ w < n ∧ Nat.Coprime w n) :
    ∀ (f : Nat) (t : Bytes), randomCoprimeLoop n f t = .ok ((v : Int), []) → randomCoprimeLoop n f (swapTape n v w t) = .ok ((w : Int), [])
  | 0, _, h => by cases h
  | f + 1, t, h => by
    unfold randomCoprimeLoop RandomInt at h ⊢
    rw [if_neg (by omega)] at h ⊢
    rw [randInt_swap hv.2.1 hw.2.1]
    cases hr : randInt (n : Int) t with
    | panic => rw [hr] at h; cases h
    | err e => rw [hr] at h; cases h
    | ok p =>
      obtain ⟨x, r⟩ := p
      rw [hr] at h
      simp only at h ⊢
      have hrel : ∀ y : Nat, IsRelativePrime (y : Int) (n : Int) = true ↔ Nat.Coprime y n := by
        intro y
        unfold IsRelativePrime Gcd
        rw [decide_eq_true_eq, Int.gcd_natCast_natCast]
        norm_cast
      by_cases e1 : x = v
      · subst e1
        have hs : swapInt v w (v : Int) = (w : Int) := by unfold swapInt; rw [Int.toNat_natCast, Equiv.swap_apply_left]
        rw [hs, if_neg (by omega), if_pos ((hrel w).mpr hw.2.2)]
        rw [if_neg (by omega), if_pos ((hrel v).mpr hv.2.2)] at h
        simp only [Res.ok.injEq, Prod.mk.injEq] at h ⊢
        exact ⟨trivial, swapTape_nil.mpr h.2⟩
      by_cases e2 : x = w
      · subst e2
        exfalso
        rw [if_neg (by omega), if_pos ((hrel w).mpr hw.2.2)] at h
        simp only [Res.ok.injEq, Prod.mk.injEq] at h
        omega
      · have h0 : 0 ≤ x := by
          unfold randInt at hr
          simp only at hr
          split at hr
          · cases hr
          split at hr
          · injection hr with hr; injection hr with ha hb; omega
          split at hr
          · injection hr with hr; injection hr with ha hb; omega
          · cases hr
        have hs : swapInt v w x = x := by
          unfold swapInt
          rw [Equiv.swap_apply_of_ne_of_ne (by omega) (by omega)]
          omega
        rw [hs]
        by_cases c1 : x ≤ 1
        · rw [if_pos c1] at h ⊢
          exact coprime_swap hv hw f r h
        · rw [if_neg c1] at h ⊢
          by_cases c2 : IsRelativePrime x n = true
          · rw [if_pos c2] at h
            simp only [Res.ok.injEq, Prod.mk.injEq] at h
            exact absurd h.1 e1
          · rw [if_neg c2] at h ⊢
            exact coprime_swap hv hw f r h

/-- C89: RandomCoprimeInt has no bias: for every length ℓ as many byte strings of that length lead to one admissible value as to
another.  (It gives up after a hundred tries, so the probabilities add up to slightly less than one.) -/
theorem C89_alice_coprime (n v w : Nat) (hv : 2 ≤ v ∧ v < n ∧ Nat.Coprime v n) (hw : 2 ≤ w ∧ w < n ∧ Nat.Coprime w n) (l : Nat) :
    Nat.card (spec.drawnBy (RandomCoprimeInt n) l v) = Nat.card (spec.drawnBy (RandomCoprimeInt n) l w) := by
  have key : ∀ (a b : Nat) (ha : 2 ≤ a ∧ a < n ∧ Nat.Coprime a n) (hb : 2 ≤ b ∧ b < n ∧ Nat.Coprime b n),
      ∀ t ∈ spec.drawnBy (RandomCoprimeInt n) l a, swapTape n a b t ∈ spec.drawnBy (RandomCoprimeInt n) l b := by
    rintro a b ha hb t ⟨hl, h⟩
    refine ⟨by rw [swapTape_length, hl], ?_⟩
    unfold RandomCoprimeInt at h ⊢
    rw [if_neg (by omega)] at h ⊢
    exact coprime_swap ha hb 100 t h
  have hc : swapTape n w v = swapTape n v w := by
    funext t; unfold swapTape swapChunk; rw [Equiv.swap_comm]
  refine Nat.card_congr ⟨fun t => ⟨_, key v w hv hw t.1 t.2⟩, fun t => ⟨_, key w v hw hv t.1 t.2⟩, ?_, ?_⟩
  · rintro ⟨t, ht⟩
    apply Subtype.ext
    change swapTape _ w v (swapTape _ v w t) = t
    rw [hc]
    exact swapTape_invol hv.2.1 hw.2.1 t
  · rintro ⟨t, ht⟩
    apply Subtype.ext
    change swapTape _ v w (swapTape _ w v t) = t
    rw [hc]
    exact swapTape_invol hv.2.1 hw.2.1 t

/-- Concrete: a byte that gives 5, and a rejected byte followed by one that gives 5. -/
example : [5] ∈ spec.drawnBy (RandomInt ((11 : Nat) : Int)) 1 5 ∧ [15, 21] ∈ spec.drawnBy (RandomInt ((11 : Nat) : Int)) 2 5 ∧
    [0, 3, 7] ∈ spec.drawnBy (RandomCoprimeInt ((15 : Nat) : Int)) 3 7 := by
  refine ⟨⟨rfl, ?_⟩, ⟨rfl, ?_⟩, ⟨rfl, ?_⟩⟩ <;> decide +kernel

end Tss.Common
