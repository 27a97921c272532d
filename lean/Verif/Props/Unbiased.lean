import Verif.Props.Common
import Mathlib.Logic.Equiv.Basic
import Mathlib.Logic.Equiv.Set
import Mathlib.SetTheory.Cardinal.Finite
import Mathlib.Data.Set.Finite.List
/-
C89: random numbers are drawn without bias. Exchanging two values in every chunk of the reader's bytes is a bijection of the byte
strings of each length that exchanges the two values in the outcome.
-/
namespace Tss.Common
open Tss

namespace spec

/-- The byte strings of length ℓ that a draw uses up exactly, with result v. `draw` runs for a number of rounds on a tape. -/
def outcomes (draw : Nat → Bytes → Run (Option Int × Bytes)) (l : Nat) (v : Int) : Set Bytes :=
  {t | t.length = l ∧ ∃ fuel, draw fuel t = some (.ok (some v, []))}

end spec

/-- Apply g to consecutive chunks of k bytes. -/
def mapChunks (k : Nat) (g : Bytes → Bytes) (t : Bytes) : Bytes :=
  if h : k = 0 ∨ t.length < k then t else g (t.take k) ++ mapChunks k g (t.drop k)
termination_by t.length
decreasing_by rw [List.length_drop]; omega

theorem mapChunks_short {k : Nat} {g : Bytes → Bytes} {t : Bytes} (h : k = 0 ∨ t.length < k) : mapChunks k g t = t := by
  rw [mapChunks, dif_pos h]

theorem mapChunks_long {k : Nat} {g : Bytes → Bytes} {t : Bytes} (h : ¬(k = 0 ∨ t.length < k)) :
    mapChunks k g t = g (t.take k) ++ mapChunks k g (t.drop k) := by
  rw [mapChunks, dif_neg h]

theorem mapChunks_length {k : Nat} {g : Bytes → Bytes} (hg : ∀ a : Bytes, a.length = k → (g a).length = k) (t : Bytes) :
    (mapChunks k g t).length = t.length := by
  induction h : t.length using Nat.strong_induction_on generalizing t with
  | _ l ih =>
    by_cases hs : k = 0 ∨ t.length < k
    · rw [mapChunks_short hs, h]
    · rw [mapChunks_long hs, List.length_append, hg _ (by rw [List.length_take]; omega),
        ih (t.length - k) (by omega) _ (by rw [List.length_drop])]
      omega

theorem mapChunks_invol {k : Nat} {g : Bytes → Bytes} (hg : ∀ a : Bytes, a.length = k → (g a).length = k)
    (hi : ∀ a : Bytes, a.length = k → g (g a) = a) (t : Bytes) : mapChunks k g (mapChunks k g t) = t := by
  induction h : t.length using Nat.strong_induction_on generalizing t with
  | _ l ih =>
    by_cases hs : k = 0 ∨ t.length < k
    · rw [mapChunks_short hs, mapChunks_short hs]
    · have hl : ¬(k = 0 ∨ (mapChunks k g t).length < k) := by rw [mapChunks_length hg]; exact hs
      have ht : (t.take k).length = k := by rw [List.length_take]; omega
      have hgl := hg _ ht
      rw [mapChunks_long hl, mapChunks_long hs]
      have t1 : (g (t.take k) ++ mapChunks k g (t.drop k)).take k = g (t.take k) := by
        rw [List.take_append_of_le_length (by omega), List.take_of_length_le (by omega)]
      have t2 : (g (t.take k) ++ mapChunks k g (t.drop k)).drop k = mapChunks k g (t.drop k) := by
        generalize g (t.take k) = c at hgl
        rw [← hgl, List.drop_left]
      rw [t1, t2, hi _ ht, ih (t.length - k) (by omega) _ (by rw [List.length_drop]), List.take_append_drop]

theorem readFull_mapChunks {k : Nat} {g : Bytes → Bytes} (hk : k ≠ 0) (hg : ∀ a : Bytes, a.length = k → (g a).length = k) (t : Bytes) :
    readFull k (mapChunks k g t) = (readFull k t).map fun p => (g p.1, mapChunks k g p.2) := by
  unfold readFull
  rw [mapChunks_length hg]
  by_cases hs : t.length < k
  · rw [if_pos hs, if_pos hs]; rfl
  · rw [if_neg hs, if_neg hs]
    have ht : (t.take k).length = k := by rw [List.length_take]; omega
    have hgl := hg _ ht
    rw [mapChunks_long (by omega)]
    simp only [Option.map_some, Option.some.injEq, Prod.mk.injEq]
    constructor
    · rw [List.take_append_of_le_length (by omega), List.take_of_length_le (by omega)]
    · generalize g (t.take k) = c at hgl
      rw [← hgl, List.drop_left]

/-- Exchange v and w in the low bits of a chunk. -/
def swapChunk (k M v w : Nat) (a : Bytes) : Bytes := beFixed k (beNat a / M * M + Equiv.swap v w (beNat a % M))

theorem swap_lt {v w x m : Nat} (hv : v < m) (hw : w < m) : Equiv.swap v w x < m ↔ x < m := by
  by_cases h1 : x = v
  · subst h1; rw [Equiv.swap_apply_left]; omega
  by_cases h2 : x = w
  · subst h2; rw [Equiv.swap_apply_right]; omega
  rw [Equiv.swap_apply_of_ne_of_ne h1 h2]

theorem swapChunk_length (k M v w : Nat) (a : Bytes) : (swapChunk k M v w a).length = k := beFixed_length _ _

theorem swapChunk_val {k M v w : Nat} (hM : M ∣ 256 ^ k) (hv : v < M) (hw : w < M) {a : Bytes} (ha : a.length = k) :
    beNat (swapChunk k M v w a) = beNat a / M * M + Equiv.swap v w (beNat a % M) := by
  unfold swapChunk
  rw [beNat_beFixed, Nat.mod_eq_of_lt]
  have hM0 : 0 < M := by omega
  have hlt := beNat_lt a
  rw [ha] at hlt
  obtain ⟨q, hq⟩ := hM
  rw [hq] at hlt ⊢
  have h1 : beNat a / M < q := Nat.div_lt_of_lt_mul hlt
  have h2 := (swap_lt (x := beNat a % M) hv hw).2 (Nat.mod_lt _ hM0)
  calc beNat a / M * M + Equiv.swap v w (beNat a % M) < beNat a / M * M + M := by omega
    _ = (beNat a / M + 1) * M := by ring
    _ ≤ q * M := Nat.mul_le_mul_right _ h1
    _ = M * q := by ring

theorem swapChunk_mod {k M v w : Nat} (hM : M ∣ 256 ^ k) (hv : v < M) (hw : w < M) {a : Bytes} (ha : a.length = k) :
    beNat (swapChunk k M v w a) % M = Equiv.swap v w (beNat a % M) ∧ beNat (swapChunk k M v w a) / M = beNat a / M := by
  have hM0 : 0 < M := by omega
  have h2 := (swap_lt (x := beNat a % M) hv hw).2 (Nat.mod_lt _ hM0)
  rw [swapChunk_val hM hv hw ha]
  constructor
  · rw [Nat.mul_comm, Nat.mul_add_mod, Nat.mod_eq_of_lt h2]
  · rw [Nat.mul_comm, Nat.mul_add_div hM0, Nat.div_eq_of_lt h2, Nat.add_zero]

theorem swapChunk_invol {k M v w : Nat} (hM : M ∣ 256 ^ k) (hv : v < M) (hw : w < M) {a : Bytes} (ha : a.length = k) :
    swapChunk k M v w (swapChunk k M v w a) = a := by
  apply beNat_inj
  · rw [swapChunk_length, ha]
  · obtain ⟨h1, h2⟩ := swapChunk_mod hM hv hw ha
    rw [swapChunk_val hM hv hw (swapChunk_length ..), h1, h2, Equiv.swap_apply_self]
    exact Nat.div_add_mod' _ _

theorem mask_val {b k : Nat} {a : Bytes} (ha : a.length = k + 1) (hb : b ≤ 8) : beNat (maskFirst b a) = beNat a % 2 ^ (8 * k + b) := by
  match a, ha with
  | x :: t, ha =>
    have hl : t.length = k := by simpa using ha
    have ht := beNat_lt t
    rw [hl] at ht
    have hp : (256 : Nat) ^ k = 2 ^ (8 * k) := by rw [pow_mul]; norm_num
    rw [maskFirst, beNat_cons, beNat_cons, hl, hp, pow_add]
    rw [hp] at ht
    have hm : x.toNat % 2 ^ b < 256 := lt_of_le_of_lt (Nat.mod_le _ _) (UInt8.toNat_lt x)
    rw [UInt8.toNat_ofNat', Nat.mod_eq_of_lt (by simpa using hm)]
    generalize 2 ^ (8 * k) = A at *
    generalize 2 ^ b = B
    rw [Nat.mod_mul, Nat.mul_comm x.toNat, Nat.mul_add_mod, Nat.mod_eq_of_lt ht, Nat.mul_add_div (by omega), Nat.div_eq_of_lt ht]
    ring

/-- rand.Int commutes with the exchange. -/
theorem randIntLoop_swap {max k b v w : Nat} (hb : b ≤ 8) (hv : v < max) (hw : w < max) (hmax : max ≤ 2 ^ (8 * k + b)) :
    ∀ (f : Nat) (t : Bytes),
    randIntLoop max (k + 1) b f (mapChunks (k + 1) (swapChunk (k + 1) (2 ^ (8 * k + b)) v w) t) =
      (randIntLoop max (k + 1) b f t).map fun p => (Equiv.swap v w p.1, mapChunks (k + 1) (swapChunk (k + 1) (2 ^ (8 * k + b)) v w) p.2)
  | 0, _ => rfl
  | f + 1, t => by
    have hM : 2 ^ (8 * k + b) ∣ 256 ^ (k + 1) := by
      have : (256 : Nat) ^ (k + 1) = 2 ^ (8 * (k + 1)) := by rw [pow_mul]; norm_num
      rw [this]; exact Nat.pow_dvd_pow 2 (by omega)
    unfold randIntLoop
    rw [readFull_mapChunks (by omega) (fun a _ => swapChunk_length ..)]
    cases hr : readFull (k + 1) t with
    | none => rfl
    | some p =>
      obtain ⟨buf, rest⟩ := p
      have hbuf : buf.length = k + 1 := by
        unfold readFull at hr
        split at hr
        · cases hr
        · injection hr with hr; injection hr with h1 h2
          rw [← h1, List.length_take]; omega
      simp only [Option.map_some]
      rw [mask_val (swapChunk_length ..) hb, mask_val hbuf hb, (swapChunk_mod hM (by omega) (by omega) hbuf).1]
      by_cases hlt : beNat buf % 2 ^ (8 * k + b) < max
      · rw [if_pos hlt, if_pos ((swap_lt hv hw).2 hlt)]; rfl
      · rw [if_neg hlt, if_neg (fun h => hlt ((swap_lt hv hw).1 h))]
        exact randIntLoop_swap hb hv hw hmax f rest

/-- The exchange for draws below max: chunk size and modulus of rand.Int. -/
def swapTape (max v w : Nat) (t : Bytes) : Bytes :=
  let bl := bitLen ((max : Int) - 1)
  mapChunks ((bl + 7) / 8) (swapChunk ((bl + 7) / 8) (2 ^ bl) v w) t

/-- The exchange on integers. -/
def swapInt (v w : Nat) (x : Int) : Int := (Equiv.swap v w x.toNat : Nat)

theorem chunk_facts {max v w : Nat} (hv : v < max) (hw : w < max) : 2 ^ bitLen ((max : Int) - 1) ∣ 256 ^ ((bitLen ((max : Int) - 1) + 7) / 8) ∧
    v < 2 ^ bitLen ((max : Int) - 1) ∧ w < 2 ^ bitLen ((max : Int) - 1) := by
  have hm : ((max : Int) - 1) = ((max - 1 : Nat) : Int) := by omega
  rw [hm]
  have hlt := lt_two_pow_bitLen (max - 1)
  refine ⟨?_, by omega, by omega⟩
  have : (256 : Nat) = 2 ^ 8 := by norm_num
  rw [this, ← pow_mul]
  exact Nat.pow_dvd_pow 2 (by omega)

theorem swapTape_length {max v w : Nat} (t : Bytes) : (swapTape max v w t).length = t.length :=
  mapChunks_length (fun _ _ => swapChunk_length ..) t

theorem swapTape_invol {max v w : Nat} (hv : v < max) (hw : w < max) (t : Bytes) : swapTape max v w (swapTape max v w t) = t := by
  obtain ⟨h1, h2, h3⟩ := chunk_facts hv hw
  exact mapChunks_invol (fun _ _ => swapChunk_length ..) (fun a ha => swapChunk_invol h1 h2 h3 ha) t

theorem swapTape_nil {max v w : Nat} {t : Bytes} : swapTape max v w t = [] ↔ t = [] := by
  rw [← List.length_eq_zero_iff, swapTape_length, List.length_eq_zero_iff]

theorem randInt_swap {max v w : Nat} (hv : v < max) (hw : w < max) (t : Bytes) :
    randInt max (swapTape max v w t) = (match randInt max t with
      | .ok (x, r) => .ok (swapInt v w x, swapTape max v w r) | .err e => .err e | .panic => .panic) := by
  obtain ⟨h1, h2, h3⟩ := chunk_facts hv hw
  have hlen := swapTape_length (max := max) (v := v) (w := w) t
  have hpos : ¬(max : Int) ≤ 0 := by omega
  unfold randInt
  rw [if_neg hpos, if_neg hpos, hlen]
  have hm : ((max : Int) - 1) = ((max - 1 : Nat) : Int) := by omega
  have hmax : max ≤ 2 ^ bitLen ((max : Int) - 1) := by
    rw [hm]; have := lt_two_pow_bitLen (max - 1); omega
  unfold swapTape
  simp only
  generalize bitLen ((max : Int) - 1) = bl at *
  by_cases hb : bl = 0
  · subst hb
    have hv0 : v = 0 := by simp at h2; exact h2
    have hw0 : w = 0 := by simp at h3; exact h3
    subst hv0 hw0
    rw [if_pos rfl, if_pos rfl]
    simp only [swapInt]
    rw [mapChunks_short (.inl rfl)]
    rfl
  · rw [if_neg hb, if_neg hb]
    generalize hb' : (if bl % 8 = 0 then 8 else bl % 8) = b
    have hb8 : b ≤ 8 := by rw [← hb']; split <;> omega
    obtain ⟨k, hk'⟩ : ∃ k, (bl + 7) / 8 = k + 1 := ⟨(bl + 7) / 8 - 1, by omega⟩
    have hkb : bl = 8 * k + b := by
      rw [← hb']; split <;> omega
    rw [hk', hkb, Int.toNat_natCast, randIntLoop_swap hb8 hv hw (by rw [← hkb]; exact hmax)]
    cases randIntLoop max (k + 1) b (t.length + 1) t with
    | none => rfl
    | some p =>
      simp only [Option.map_some]
      unfold swapInt
      rw [Int.toNat_natCast]

theorem must_swap {bits v w : Nat} (hv : v < 2 ^ bits - 1) (hw : w < 2 ^ bits - 1) (t : Bytes) :
    MustGetRandomInt bits (swapTape (2 ^ bits - 1) v w t) = (match MustGetRandomInt bits t with
      | .ok (x, r) => .ok (swapInt v w x, swapTape (2 ^ bits - 1) v w r) | .err e => .err e | .panic => .panic) := by
  unfold MustGetRandomInt
  by_cases hb : (bits : Int) ≤ 0 ∨ mustGetRandomIntMaxBits < (bits : Int)
  · rw [if_pos hb, if_pos hb]
  · rw [if_neg hb, if_neg hb]
    have hmax : ((2 : Int) ^ (bits : Int).toNat - 1) = ((2 ^ bits - 1 : Nat) : Int) := by
      have : 1 ≤ 2 ^ bits := Nat.one_le_two_pow
      simp [Nat.cast_sub this]
    simp only
    rw [hmax, randInt_swap hv hw]
    cases randInt ((2 ^ bits - 1 : Nat) : Int) t with
    | ok p => rfl
    | err e => rfl
    | panic => rfl

/-- The retry loops, for any test of the drawn number. -/
def retry (bits : Nat) (good : Int → Bool) : Nat → Bytes → Run (Option Int × Bytes)
  | 0, _ => none
  | f + 1, tape =>
    match MustGetRandomInt bits tape with
    | .ok (t, rest) => if good t then some (.ok (some t, rest)) else retry bits good f rest
    | .err _ => some (.err ())
    | .panic => some .panic

theorem retry_swap {bits v w : Nat} {good : Int → Bool} (hv : v < 2 ^ bits - 1) (hw : w < 2 ^ bits - 1) (gv : good v = true)
    (gw : good w = true) : ∀ (f : Nat) (t : Bytes) (u : Int), retry bits good f t = some (.ok (some u, [])) →
    retry bits good f (swapTape (2 ^ bits - 1) v w t) = some (.ok (some (swapInt v w u), []))
  | 0, _, _, h => by cases h
  | f + 1, t, u, h => by
    unfold retry at h ⊢
    rw [must_swap hv hw]
    cases hm : MustGetRandomInt bits t with
    | panic => rw [hm] at h; cases h
    | err e => rw [hm] at h; cases h
    | ok p =>
      obtain ⟨x, r⟩ := p
      rw [hm] at h
      simp only at h ⊢
      obtain ⟨-, -, h0, -⟩ := MustGetRandomInt_range hm
      have hgood : good (swapInt v w x) = good x := by
        unfold swapInt
        by_cases e1 : x.toNat = v
        · have : x = v := by omega
          rw [e1, Equiv.swap_apply_left, gw, this, gv]
        by_cases e2 : x.toNat = w
        · have : x = w := by omega
          rw [e2, Equiv.swap_apply_right, gv, this, gw]
        rw [Equiv.swap_apply_of_ne_of_ne e1 e2, Int.toNat_of_nonneg h0]
      rw [hgood]
      by_cases hg : good x = true
      · rw [if_pos hg] at h ⊢
        simp only [Option.some.injEq, Res.ok.injEq, Prod.mk.injEq] at h ⊢
        obtain ⟨rfl, rfl⟩ := h
        exact ⟨rfl, swapTape_nil.2 rfl⟩
      · rw [if_neg hg] at h ⊢
        exact retry_swap hv hw gv gw f r u h

theorem positive_retry (n : Nat) : ∀ (f : Nat) (t : Bytes), getRandomPositiveIntLoop n f t = retry (bitLen (n : Int)) (fun x => decide (x < n)) f t
  | 0, _ => rfl
  | f + 1, t => by
    unfold getRandomPositiveIntLoop retry
    cases MustGetRandomInt (bitLen (n : Int)) t with
    | panic => rfl
    | err e => rfl
    | ok p =>
      simp only [decide_eq_true_eq]
      rw [positive_retry n f]

theorem relPrime_retry (n : Nat) : ∀ (f : Nat) (t : Bytes),
    relPrimeLoop n f t = retry (bitLen (n : Int)) (fun x => IsNumberInMultiplicativeGroup (some (n : Int)) (some x)) f t
  | 0, _ => rfl
  | f + 1, t => by
    unfold relPrimeLoop retry
    cases MustGetRandomInt (bitLen (n : Int)) t with
    | panic => rfl
    | err e => rfl
    | ok p =>
      simp only
      rw [relPrime_retry n f]

theorem card_swap {draw : Nat → Bytes → Run (Option Int × Bytes)} {bits v w : Nat} {good : Int → Bool}
    (hd : ∀ f t, draw f t = retry bits good f t) (hv : v < 2 ^ bits - 1) (hw : w < 2 ^ bits - 1) (gv : good v = true)
    (gw : good w = true) (l : Nat) : Nat.card (spec.outcomes draw l v) = Nat.card (spec.outcomes draw l w) := by
  have key : ∀ (a b : Nat) (ha : a < 2 ^ bits - 1) (hb : b < 2 ^ bits - 1), good a = true → good b = true →
      ∀ t ∈ spec.outcomes draw l a, swapTape (2 ^ bits - 1) a b t ∈ spec.outcomes draw l b := by
    rintro a b ha hb ga gb t ⟨hl, f, h⟩
    refine ⟨by rw [swapTape_length, hl], f, ?_⟩
    rw [hd] at h ⊢
    rw [retry_swap ha hb ga gb f t _ h]
    unfold swapInt
    rw [Int.toNat_natCast, Equiv.swap_apply_left]
  refine Nat.card_congr ⟨fun t => ⟨_, key v w hv hw gv gw t.1 t.2⟩, fun t => ⟨_, key w v hw hv gw gv t.1 t.2⟩, ?_, ?_⟩
  · rintro ⟨t, ht⟩
    apply Subtype.ext
    have hc : swapTape (2 ^ bits - 1) w v = swapTape (2 ^ bits - 1) v w := by
      funext t; unfold swapTape swapChunk; rw [Equiv.swap_comm]
    change swapTape _ w v (swapTape _ v w t) = t
    rw [hc]
    exact swapTape_invol hv hw t
  · rintro ⟨t, ht⟩
    apply Subtype.ext
    have hc : swapTape (2 ^ bits - 1) w v = swapTape (2 ^ bits - 1) v w := by
      funext t; unfold swapTape swapChunk; rw [Equiv.swap_comm]
    change swapTape _ v w (swapTape _ w v t) = t
    rw [hc]
    exact swapTape_invol hv hw t

/-- C89: a share or a nonce below n is drawn without bias: for every length ℓ and any two values in [0, n), as many byte strings of
length ℓ lead (using up all of the string) to the one as to the other. The sets are finite. -/
theorem C89_unbiased (n v w : Nat) (hv : v < n) (hw : w < n) (l : Nat) :
    Nat.card (spec.outcomes (GetRandomPositiveInt (some n)) l v) = Nat.card (spec.outcomes (GetRandomPositiveInt (some n)) l w) := by
  refine card_swap (bits := bitLen (n : Int)) (good := fun x => decide (x < n)) (fun f t => ?_) (lt_pow_bitLen_sub_one hv)
    (lt_pow_bitLen_sub_one hw) (by simpa using hv) (by simpa using hw) l
  rw [← positive_retry]
  unfold GetRandomPositiveInt
  simp only
  rw [if_neg (by omega)]

/-- C89: the same for the units modulo n. -/
theorem C89_unbiased_units (n v w : Nat) (hv : 1 ≤ v ∧ v < n ∧ Nat.Coprime v n) (hw : 1 ≤ w ∧ w < n ∧ Nat.Coprime w n) (l : Nat) :
    Nat.card (spec.outcomes (GetRandomPositiveRelativelyPrimeInt (some n)) l v) =
      Nat.card (spec.outcomes (GetRandomPositiveRelativelyPrimeInt (some n)) l w) := by
  have hg : ∀ x : Nat, 1 ≤ x ∧ x < n ∧ Nat.Coprime x n → IsNumberInMultiplicativeGroup (some (n : Int)) (some (x : Int)) = true := by
    rintro x ⟨h1, h2, h3⟩
    rw [C04_group_test]
    refine ⟨by omega, by omega, by omega, ?_⟩
    rw [Int.gcd_natCast_natCast]; exact h3
  refine card_swap (bits := bitLen (n : Int)) (good := fun x => IsNumberInMultiplicativeGroup (some (n : Int)) (some x))
    (fun f t => ?_) (lt_pow_bitLen_sub_one hv.2.1) (lt_pow_bitLen_sub_one hw.2.1) (hg v hv) (hg w hw) l
  rw [← relPrime_retry]
  unfold GetRandomPositiveRelativelyPrimeInt
  simp only
  rw [if_neg (by omega)]

/-- C89: the sets counted are finite, and no byte string leads to two values, so the counts divided by 256^ℓ are the probabilities of
drawing a value with exactly ℓ bytes. -/
theorem C89_outcomes_finite (n : Nat) (v w : Int) (l : Nat) :
    (spec.outcomes (GetRandomPositiveInt (some n)) l v).Finite ∧
    (v ≠ w → Disjoint (spec.outcomes (GetRandomPositiveInt (some n)) l v) (spec.outcomes (GetRandomPositiveInt (some n)) l w)) := by
  constructor
  · have : Finite UInt8 := Finite.of_injective UInt8.toFin fun a b h => UInt8.toFin_inj.1 h
    exact (List.finite_length_eq UInt8 l).subset fun t ht => ht.1
  · intro hne
    rw [Set.disjoint_left]
    rintro t ⟨-, f, h⟩ ⟨-, f', h'⟩
    apply hne
    have mono : ∀ (f : Nat) (t : Bytes) (r : Res Unit (Option Int × Bytes)), getRandomPositiveIntLoop n f t = some r →
        ∀ g, f ≤ g → getRandomPositiveIntLoop n g t = some r := by
      intro f
      induction f with
      | zero => intro t r h; cases h
      | succ f ih =>
        intro t r h g hg
        obtain ⟨g, rfl⟩ : ∃ g', g = g' + 1 := ⟨g - 1, by omega⟩
        unfold getRandomPositiveIntLoop at h ⊢
        cases hm : MustGetRandomInt (bitLen (n : Int)) t with
        | panic => rw [hm] at h; exact h
        | err e => rw [hm] at h; exact h
        | ok p =>
          rw [hm] at h
          simp only at h ⊢
          split
          · rw [if_pos ‹_›] at h; exact h
          · rw [if_neg ‹_›] at h; exact ih _ _ h g (by omega)
    by_cases hn : (0 : Int) < n
    · unfold GetRandomPositiveInt at h h'
      simp only at h h'
      rw [if_neg (by omega)] at h h'
      have a := mono f t _ h (max f f') (le_max_left _ _)
      have b := mono f' t _ h' (max f f') (le_max_right _ _)
      rw [a] at b
      simp only [Option.some.injEq, Res.ok.injEq, Prod.mk.injEq, and_true] at b
      exact b
    · unfold GetRandomPositiveInt at h
      simp only at h
      rw [if_pos (by omega)] at h
      simp at h

/-- C89, non-vacuity: with n = 5 the byte 0xfb (low bits 3) draws 3; and values are drawn for every n up to 5000 bits (C04). -/
example : [0xfb] ∈ spec.outcomes (GetRandomPositiveInt (some (5 : Nat))) 1 3 ∧ [0xfb] ∉ spec.outcomes (GetRandomPositiveInt (some (5 : Nat))) 1 2 := by
  have h : ([0xfb] : Bytes) ∈ spec.outcomes (GetRandomPositiveInt (some (5 : Nat))) 1 3 := ⟨rfl, 1, by decide⟩
  exact ⟨h, fun h' => Set.disjoint_left.1 ((C89_outcomes_finite 5 3 2 1).2 (by norm_num)) h h'⟩

end Tss.Common
