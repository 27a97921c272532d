import Verif.Model.SafePrime
import Verif.Lemmas.Common
import Mathlib.NumberTheory.LucasPrimality
import Mathlib.FieldTheory.Finite.Basic
import Mathlib.Tactic.NormNum.Prime
/-! C60: the pairs the safe-prime search emits are well formed. -/
namespace Tss.SafePrime
open Tss Common

/-! ### Specification -/

/-- A well-formed pair for the requested bit length: p = 2q+1, exact bit lengths with the top two bits of both set,
and all the primality tests passed. -/
structure spec.Good (pp : Nat → Nat → Bool) (bits : Nat) (s : Pair) : Prop where
  double : s.p = 2 * s.q + 1
  low : 3 * 2 ^ (bits - 2) ≤ s.p
  high : s.p < 2 ^ bits
  qlow : 3 * 2 ^ (bits - 3) ≤ s.q
  qhigh : s.q < 2 ^ (bits - 1)
  testq : pp 20 s.q = true
  testq' : pp 30 s.q = true
  testp : pp 30 s.p = true
  fermat : 2 ^ (s.p - 1) ≡ 1 [MOD s.p]

/-! ### The candidate -/

theorem firstByte_ge (b : Nat) (hb : 2 ≤ b) (hb8 : b ≤ 8) (x : UInt8) : 3 * 2 ^ (b - 2) ≤ (firstByte b x).toNat := by
  have key : ∀ b : Fin 9, 2 ≤ b.val → ∀ x : Fin 256, 3 * 2 ^ (b.val - 2) ≤ (firstByte b.val (UInt8.ofNat x.val)).toNat := by
    decide +kernel
  have := key ⟨b, by omega⟩ hb ⟨x.toNat, x.toNat_lt⟩
  simpa using this

theorem or_ge (x y : UInt8) : x.toNat ≤ (x ||| y).toNat := by
  rw [UInt8.toNat_or]; exact Nat.left_le_or

theorem setOdd_length : ∀ l : Bytes, (setOdd l).length = l.length
  | [] => rfl
  | [x] => rfl
  | x :: y :: t => by simp [setOdd, setOdd_length (y :: t)]

theorem setOdd_ge : ∀ l : Bytes, beNat l ≤ beNat (setOdd l)
  | [] => le_refl _
  | [x] => by have := or_ge x 1; simp only [setOdd, beNat_cons, List.length_nil, pow_zero]; omega
  | x :: y :: t => by
    have := setOdd_ge (y :: t)
    have hl := setOdd_length (y :: t)
    rw [setOdd, beNat_cons, beNat_cons x (setOdd (y :: t)), hl]
    omega

theorem candidate_ge (qBits : Nat) (hq : 5 ≤ qBits) (bytes : Bytes) (hl : bytes.length = (qBits + 7) / 8) :
    3 * 2 ^ (qBits - 2) ≤ candidate qBits bytes := by
  cases bytes with
  | nil => simp at hl; omega
  | cons x t =>
    simp only [List.length_cons] at hl
    unfold candidate
    simp only
    refine le_trans ?_ (setOdd_ge _)
    rw [beNat_cons]
    have hsl : (secondByte (topBits qBits) t).length = t.length := by cases t <;> simp [secondByte]
    rw [hsl]
    have hb : qBits = topBits qBits + 8 * t.length := by unfold topBits; split <;> omega
    have h1 : 1 ≤ topBits qBits := by unfold topBits; split <;> omega
    have h8 : topBits qBits ≤ 8 := by unfold topBits; split <;> omega
    have e256 : (256 : Nat) ^ t.length = 2 ^ (8 * t.length) := by rw [pow_mul]; norm_num
    rw [e256]
    rcases Nat.lt_or_ge (topBits qBits) 2 with h2 | h2
    · have hb1 : topBits qBits = 1 := by omega
      cases t with
      | nil => simp at hb; omega
      | cons y t =>
        have hf : 1 ≤ (firstByte (topBits qBits) x).toNat := by
          have key : ∀ x : Fin 256, 1 ≤ (firstByte 1 (UInt8.ofNat x.val)).toNat := by decide +kernel
          rw [hb1]
          simpa using key ⟨x.toNat, x.toNat_lt⟩
        have hs : 128 ≤ (y ||| 0x80).toNat := by
          have key : ∀ x : Fin 256, 128 ≤ (UInt8.ofNat x.val ||| 0x80).toNat := by decide +kernel
          simpa using key ⟨y.toNat, y.toNat_lt⟩
        have e2 : secondByte (topBits qBits) (y :: t) = (y ||| 0x80) :: t := by
          simp only [secondByte]; rw [if_neg (by omega)]
        rw [e2, beNat_cons]
        have e3 : qBits - 2 = 7 + 8 * t.length := by simp only [List.length_cons] at hb; omega
        rw [e3]
        have e4 : 2 ^ (8 * (y :: t).length) = 256 * 2 ^ (8 * t.length) := by
          simp only [List.length_cons]; rw [Nat.mul_add, pow_add]; norm_num [mul_comm]
        have e5 : (256 : Nat) ^ t.length = 2 ^ (8 * t.length) := by rw [pow_mul]; norm_num
        rw [e4, e5, pow_add]
        generalize 2 ^ (8 * t.length) = z at *
        nlinarith
    · have hf := firstByte_ge (topBits qBits) h2 h8 x
      have e3 : 2 ^ (qBits - 2) = 2 ^ (topBits qBits - 2) * 2 ^ (8 * t.length) := by
        rw [← pow_add]; congr 1; omega
      rw [e3]
      have := Nat.mul_le_mul_right (2 ^ (8 * t.length)) hf
      calc 3 * (2 ^ (topBits qBits - 2) * 2 ^ (8 * t.length)) = 3 * 2 ^ (topBits qBits - 2) * 2 ^ (8 * t.length) := by ring
        _ ≤ _ := by omega

theorem deltaLoop_ge (qBits mod : Nat) : ∀ (k d p q : Nat), q ≤ (deltaLoop qBits mod k d p q).2
  | 0, _, _, q => le_refl q
  | k + 1, d, p, q => by
    unfold deltaLoop
    split
    · exact deltaLoop_ge qBits mod k _ p q
    · simp only
      have hq : q ≤ (if 0 < d then q + d else q) := by split <;> omega
      generalize (if 0 < d then q + d else q) = q' at hq ⊢
      split
      · exact le_trans hq (deltaLoop_ge qBits mod k _ p _)
      · split
        · exact le_trans hq (deltaLoop_ge qBits mod k _ _ _)
        · exact hq

/-- What an iteration emits is well formed. -/
theorem iteration_good {pp : Nat → Nat → Bool} {bits p : Nat} (hb : 6 ≤ bits) {bytes : Bytes}
    (hl : bytes.length = (bits - 1 + 7) / 8) {s : Pair} (h : (iteration pp (bits - 1) p bytes).1 = some s) :
    spec.Good pp bits s := by
  unfold iteration at h
  simp only at h
  have hc := candidate_ge (bits - 1) (by omega) bytes hl
  have hm := deltaLoop_ge (bits - 1) (candidate (bits - 1) bytes % smallPrimesProduct) (2 ^ 19) 0 p (candidate (bits - 1) bytes)
  generalize deltaLoop (bits - 1) (candidate (bits - 1) bytes % smallPrimesProduct) (2 ^ 19) 0 p (candidate (bits - 1) bytes) = r at *
  obtain ⟨p', q'⟩ := r
  simp only at h hm
  split at h
  swap
  · simp at h
  next h1 =>
  split at h
  swap
  · simp at h
  next h2 =>
  simp only [Option.some.injEq] at h
  subst h
  simp only [Bool.and_eq_true, decide_eq_true_eq, Validate, getSafePrime] at h1 h2
  obtain ⟨⟨h20, hpo⟩, hbl⟩ := h1
  obtain ⟨⟨h30, hd⟩, h30'⟩ := h2
  replace hd := of_decide_eq_true hd
  have hqh : q' < 2 ^ (bits - 1) := by
    rw [bitLen_nat] at hbl
    rw [← hbl]; exact Nat.lt_size_self q'
  have e1 : bits - 1 - 2 = bits - 3 := by omega
  rw [e1] at hc
  have hql : 3 * 2 ^ (bits - 3) ≤ q' := le_trans hc hm
  have e2 : 2 ^ (bits - 2) = 2 * 2 ^ (bits - 3) := by rw [← pow_succ']; congr 1; omega
  have e3 : 2 ^ bits = 2 * 2 ^ (bits - 1) := by rw [← pow_succ']; congr 1; omega
  have hp0 : 0 < p' := by omega
  refine ⟨by simp only; omega, by simp only; omega, by simp only; omega, hql, hqh, h20, h30, h30', ?_⟩
  simp only
  unfold isPocklington bigExp at hpo
  simp only [decide_eq_true_eq] at hpo
  rw [if_neg (by omega), if_neg (by omega)] at hpo
  simp only [Option.some.injEq] at hpo
  have e4 : ((p' : Int) - 1).toNat = p' - 1 := by omega
  rw [e4] at hpo
  have h5 : 2 ^ (p' - 1) % p' = 1 := by
    have : (((2 ^ (p' - 1) % p' : ℕ)) : Int) = 1 := by push_cast; exact hpo
    exact_mod_cast this
  unfold Nat.ModEq
  rw [h5, Nat.mod_eq_of_lt]
  have : 0 < 2 ^ (bits - 3) := by positivity
  omega

/-! ### Every schedule -/

/-- The result of a call that is returning or has returned. -/
def outcome {ε : Type} (s : St ε) : Option (Result ε) :=
  match s.main with
  | .collecting _ => none
  | .leaving r => some r
  | .waiting r => some r
  | .returned r => some r

structure Inv {ε : Type} (c : Cfg) (s : St ε) : Prop where
  good : ∀ pr, (pr ∈ s.primeCh ∨ W.sending pr ∈ s.ws) → spec.Good c.pp c.bitLen pr
  got : ∀ g, s.main = .collecting g → g.length < c.numPrimes ∧ ∀ pr ∈ g, spec.Good c.pp c.bitLen pr
  res : ∀ l, outcome s = some (.primes l) → l.length = c.numPrimes ∧ ∀ pr ∈ l, spec.Good c.pp c.bitLen pr
  canc : outcome s = some .cancelled → s.parentDone = true

theorem inv_step {ε : Type} {c : Cfg} (hb : 6 ≤ c.bitLen) {s t : St ε} (h : Inv c s) (st : Step c s t) : Inv c t := by
  obtain ⟨h1, h2, h3, h4⟩ := h
  cases st with
  | stop hw hg =>
    refine ⟨fun pr hp => h1 pr ?_, h2, h3, h4⟩
    rw [hw]; simp only [List.mem_append, List.mem_cons] at hp ⊢; tauto
  | begin hw hg =>
    refine ⟨fun pr hp => h1 pr ?_, h2, h3, h4⟩
    rw [hw]; simp only [List.mem_append, List.mem_cons] at hp ⊢; tauto
  | readErr e hw =>
    refine ⟨fun pr hp => h1 pr ?_, h2, h3, h4⟩
    rw [hw]; simp only [List.mem_append, List.mem_cons] at hp ⊢; tauto
  | @compute l r p q bytes hw hl =>
    refine ⟨fun pr hp => ?_, h2, h3, h4⟩
    simp only [List.mem_append, List.mem_cons] at hp
    rcases hp with hp | hp | hp | hp
    · exact h1 pr (.inl hp)
    · exact h1 pr (.inr (by rw [hw]; simp [hp]))
    · apply iteration_good hb hl (p := p)
      revert hp
      generalize iteration c.pp (c.bitLen - 1) p bytes = r
      obtain ⟨o, a, b⟩ := r
      cases o <;> simp [afterIteration]
      intro h; exact h.symm
    · exact h1 pr (.inr (by rw [hw]; simp [hp]))
  | send hw hl =>
    refine ⟨fun pr hp => h1 pr ?_, h2, h3, h4⟩
    rw [hw]; simp only [List.mem_append, List.mem_cons, List.not_mem_nil, or_false] at hp ⊢
    rcases hp with (hp | hp) | hp | hp | hp
    · exact .inl hp
    · subst hp; simp
    · simp [hp]
    · simp at hp
    · simp [hp]
  | fail hw hl =>
    refine ⟨fun pr hp => h1 pr ?_, h2, h3, h4⟩
    rw [hw]; simp only [List.mem_append, List.mem_cons] at hp ⊢; tauto
  | @recvPrime got pr rest hm hc =>
    have hpr := h1 pr (.inl (by rw [hc]; simp))
    obtain ⟨g1, g2⟩ := h2 got hm
    have hall : ∀ x ∈ got ++ [pr], spec.Good c.pp c.bitLen x := by
      intro x hx
      simp only [List.mem_append, List.mem_singleton] at hx
      rcases hx with hx | rfl
      · exact g2 x hx
      · exact hpr
    refine ⟨fun x hp => h1 x ?_, ?_, ?_, ?_⟩
    · rw [hc]; simp only [List.mem_cons] at hp ⊢; tauto
    · intro g hg
      simp only [onPrime] at hg
      split at hg
      · simp at hg
      · next hn => simp only [Main.collecting.injEq] at hg; subst hg; exact ⟨by omega, hall⟩
    · intro l hl
      by_cases hn : c.numPrimes ≤ (got ++ [pr]).length
      · simp only [outcome, onPrime, if_pos hn, Option.some.injEq, Result.primes.injEq] at hl
        subst hl
        refine ⟨?_, fun x hx => hall x (List.mem_of_mem_take hx)⟩
        rw [List.length_take]; simp only [List.length_append, List.length_singleton] at hn ⊢; omega
      · simp only [outcome, onPrime, if_neg hn, reduceCtorEq] at hl
    · intro hl
      by_cases hn : c.numPrimes ≤ (got ++ [pr]).length
      · simp only [outcome, onPrime, if_pos hn, Option.some.injEq, reduceCtorEq] at hl
      · simp only [outcome, onPrime, if_neg hn, reduceCtorEq] at hl
  | recvErr hm hc => exact ⟨h1, by simp, by simp [outcome], by simp [outcome]⟩
  | recvDone hm hp => exact ⟨h1, by simp, by simp [outcome], fun _ => hp⟩
  | cancel hm =>
    refine ⟨h1, by simp, fun l hl => h3 l ?_, fun hl => h4 ?_⟩ <;> simpa [outcome, hm] using hl
  | finish hm hd =>
    refine ⟨h1, by simp, fun l hl => h3 l ?_, fun hl => h4 ?_⟩ <;> simpa [outcome, hm] using hl
  | propagate _ _ => exact ⟨h1, h2, h3, h4⟩

theorem inv_run {ε : Type} {c : Cfg} (hb : 6 ≤ c.bitLen) (hn : 1 ≤ c.numPrimes) {s : St ε} (h : Run c (init c) s) : Inv c s := by
  generalize hi : init c = i at h
  induction h with
  | refl =>
    subst hi
    refine ⟨?_, ?_, ?_, ?_⟩
    · simp [init]
    · intro g hg; simp [init] at hg; subst hg; simp; omega
    · simp [init, outcome]
    · simp [init, outcome]
  | tail _ st ih =>
    subst hi
    cases st with
    | step st => exact inv_step hb ih st
    | cancelParent hp => exact ⟨ih.good, ih.got, ih.res, fun _ => rfl⟩

/-- C60. Under every schedule, every choice of the random bytes and every cancellation: what the call returns as primes is
exactly as many pairs as requested, each one well formed. -/
theorem C60_returned_pairs {ε : Type} (pp : Nat → Nat → Bool) (bits numPrimes concurrency : Int) (c : Cfg) (s0 s : St ε)
    (h0 : start pp bits numPrimes concurrency = .ok (c, s0)) (h : Run c s0 s) (l : List Pair)
    (hr : s.main = .returned (.primes l)) :
    (l.length : Int) = numPrimes ∧ ∀ pr ∈ l, spec.Good pp bits.toNat pr := by
  unfold start at h0
  split at h0
  · simp at h0
  split at h0
  · simp at h0
  split at h0
  · simp at h0
  simp only [Res.ok.injEq, Prod.mk.injEq] at h0
  obtain ⟨rfl, rfl⟩ := h0
  have hi := inv_run (by simp only; omega) (by simp only; omega) h
  obtain ⟨h1, h2⟩ := hi.res l (by simp [outcome, hr])
  simp only at h1 h2
  exact ⟨by omega, h2⟩

/-- C60. Which calls are refused before anything starts. -/
theorem C60_arguments {ε : Type} (pp : Nat → Nat → Bool) (bits numPrimes concurrency : Int) :
    (∃ r, (start pp bits numPrimes concurrency : Res String (Cfg × St ε)) = .ok r) ↔ 6 ≤ bits ∧ 1 ≤ numPrimes ∧ 0 ≤ concurrency := by
  unfold start
  split
  · simp only [reduceCtorEq, exists_false, false_iff]; omega
  split
  · simp only [reduceCtorEq, exists_false, false_iff]; omega
  split
  · simp only [reduceCtorEq, exists_false, false_iff]; omega
  · simp only [Res.ok.injEq, exists_eq', true_iff]; omega

/-- C60. The test the search relies on for p is exact: for q prime, 2^(2q) ≡ 1 modulo 2q+1 holds exactly if 2q+1 is prime. -/
theorem C60_pocklington (q : Nat) (hq : q.Prime) : 2 ^ (2 * q) ≡ 1 [MOD 2 * q + 1] ↔ (2 * q + 1).Prime := by
  have hq2 := hq.two_le
  constructor
  · intro h
    by_contra hp
    set p := 2 * q + 1 with hpd
    -- a prime factor of p different from p is 3
    have key : ∀ r : Nat, r.Prime → r ∣ p → r = 3 := by
      intro r hr hrd
      have hfr : Fact r.Prime := ⟨hr⟩
      have hr2 : r ≠ 2 := by rintro rfl; omega
      have hmod : 2 ^ (2 * q) ≡ 1 [MOD r] := h.of_dvd hrd
      have hz : (2 : ZMod r) ≠ 0 := by
        intro h0
        have : ((2 : ℕ) : ZMod r) = 0 := by exact_mod_cast h0
        rw [ZMod.natCast_eq_zero_iff] at this
        exact hr2 ((Nat.prime_dvd_prime_iff_eq hr Nat.prime_two).mp this)
      have h1 : (2 : ZMod r) ^ (2 * q) = 1 := by
        have := (ZMod.natCast_eq_natCast_iff _ _ r).mpr hmod
        push_cast at this; exact this
      have h2 : (2 : ZMod r) ^ (r - 1) = 1 := ZMod.pow_card_sub_one_eq_one hz
      by_cases hqr : q ∣ r - 1
      · -- then r > q, so r = p
        exfalso
        have hle : q ≤ r - 1 := Nat.le_of_dvd (by have := hr.two_le; omega) hqr
        obtain ⟨t, ht⟩ := hrd
        have ht1 : t = 1 := by
          rcases Nat.lt_or_ge t 2 with h | h
          · interval_cases t
            · omega
            · rfl
          · have : r * 2 ≤ r * t := Nat.mul_le_mul_left r h
            omega
        rw [ht1, mul_one] at ht
        exact hp (ht ▸ hr)
      · have hc : Nat.Coprime q (r - 1) := (Nat.Prime.coprime_iff_not_dvd hq).mpr hqr
        have ho : orderOf (2 : ZMod r) ∣ 2 := by
          have d1 := orderOf_dvd_of_pow_eq_one h1
          have d2 := orderOf_dvd_of_pow_eq_one h2
          exact (Nat.Coprime.coprime_dvd_left d2 hc.symm).dvd_of_dvd_mul_right d1
        have h3 : (2 : ZMod r) ^ 2 = 1 := orderOf_dvd_iff_pow_eq_one.mp ho
        have h4 : ((4 : ℕ) : ZMod r) = ((1 : ℕ) : ZMod r) := by
          push_cast
          calc (4 : ZMod r) = 2 ^ 2 := by norm_num
            _ = 1 := h3
        rw [ZMod.natCast_eq_natCast_iff] at h4
        have h5 : r ∣ 3 := by
          have := (Nat.modEq_iff_dvd' (by norm_num : 1 ≤ 4)).mp h4.symm
          exact this
        exact (Nat.prime_dvd_prime_iff_eq hr Nat.prime_three).mp h5
    -- 9 divides p
    have h3 : 3 ∣ p := by
      obtain ⟨r, hr, hrd⟩ := Nat.exists_prime_and_dvd (by omega : p ≠ 1)
      rw [← key r hr hrd]; exact hrd
    obtain ⟨t, ht⟩ := h3
    have ht1 : t ≠ 1 := by rintro rfl; omega
    have h9 : 9 ∣ p := by
      obtain ⟨r, hr, hrd⟩ := Nat.exists_prime_and_dvd ht1
      have : r = 3 := key r hr (by rw [ht]; exact Dvd.dvd.mul_left hrd 3)
      subst this
      obtain ⟨u, rfl⟩ := hrd
      exact ⟨u, by rw [ht]; ring⟩
    have hm9 : 2 ^ (2 * q) ≡ 1 [MOD 9] := h.of_dvd h9
    have hperiod : (2 : Nat) ^ (2 * q) % 9 = 2 ^ ((2 * q) % 6) % 9 := by
      conv_lhs => rw [← Nat.mod_add_div (2 * q) 6, pow_add, pow_mul, Nat.mul_mod, Nat.pow_mod (2 ^ 6)]
      norm_num
    unfold Nat.ModEq at hm9
    rw [hperiod] at hm9
    have h6 : (2 * q) % 6 < 6 := Nat.mod_lt _ (by norm_num)
    have h60 : (2 * q) % 6 = 0 := by
      interval_cases hx : (2 * q) % 6 <;> simp at hm9 ⊢
    have hq3 : q = 3 := by
      have : 3 ∣ q := by omega
      exact ((Nat.prime_dvd_prime_iff_eq Nat.prime_three hq).mp this).symm
    subst hq3
    omega
  · intro hp
    have hf : Fact (2 * q + 1).Prime := ⟨hp⟩
    have hz : (2 : ZMod (2 * q + 1)) ≠ 0 := by
      intro h0
      have : ((2 : ℕ) : ZMod (2 * q + 1)) = 0 := by exact_mod_cast h0
      rw [ZMod.natCast_eq_zero_iff] at this
      have := Nat.le_of_dvd (by norm_num) this
      omega
    have h2 : (2 : ZMod (2 * q + 1)) ^ (2 * q + 1 - 1) = 1 := ZMod.pow_card_sub_one_eq_one hz
    rw [← ZMod.natCast_eq_natCast_iff]
    push_cast
    simpa using h2

/-- C60. If the 20-round test only accepts primes, both numbers of every returned pair are prime, p whatever its own test says. -/
theorem C60_safe_primes (pp : Nat → Nat → Bool) (bits : Nat) (s : Pair) (h : spec.Good pp bits s)
    (hpp : ∀ n, pp 20 n = true → n.Prime) : s.q.Prime ∧ s.p.Prime := by
  have hq := hpp _ h.testq
  refine ⟨hq, ?_⟩
  have hf := h.fermat
  rw [h.double] at hf ⊢
  exact (C60_pocklington _ hq).mp hf

/-- C60. The product of two returned safe primes has exactly twice the requested bit length. -/
theorem C60_product_bits (pp : Nat → Nat → Bool) (bits : Nat) (hb : 6 ≤ bits) (s t : Pair) (hs : spec.Good pp bits s)
    (ht : spec.Good pp bits t) : bitLen ((s.p * t.p : ℕ) : Int) = 2 * bits := by
  rw [bitLen_nat]
  have h1 := hs.low
  have h2 := ht.low
  have h3 := hs.high
  have h4 := ht.high
  have e : 2 ^ bits = 4 * 2 ^ (bits - 2) := by
    rw [show (4 : Nat) = 2 ^ 2 by norm_num, ← pow_add]; congr 1; omega
  have e2 : (2 : Nat) ^ (2 * bits) = 2 * 2 ^ (2 * bits - 1) := by rw [← pow_succ']; congr 1; omega
  have e3 : (2 : Nat) ^ (2 * bits) = 2 ^ bits * 2 ^ bits := by rw [← pow_add]; congr 1; omega
  have lo : 2 ^ (2 * bits - 1) ≤ s.p * t.p := by
    have : 3 * 2 ^ (bits - 2) * (3 * 2 ^ (bits - 2)) ≤ s.p * t.p := Nat.mul_le_mul h1 h2
    nlinarith
  have hi : s.p * t.p < 2 ^ (2 * bits) := by rw [e3]; exact Nat.mul_lt_mul'' h3 h4
  apply le_antisymm
  · exact Nat.size_le.mpr hi
  · have := Nat.lt_size.mpr lo
    omega

/-! ### A concrete case -/

/-- An exact primality test. -/
def exact (_ n : Nat) : Bool := decide n.Prime

/-- Six bits, one byte 0x1d: the pair (59, 29). -/
theorem iteration_example : (iteration exact 5 0 [0x1d]).1 = some ⟨59, 29⟩ := by
  have e : deltaLoop 5 (candidate 5 [0x1d] % smallPrimesProduct) (2 ^ 19) 0 0 (candidate 5 [0x1d]) = (59, 29) := by decide +kernel
  unfold iteration
  simp only
  rw [e]
  have h1 : exact 20 29 = true := by simp [exact]; norm_num
  have h2 : Validate exact ⟨59, 29⟩ = true := by simp [Validate, exact, getSafePrime]; norm_num
  have h3 : isPocklington 59 = true := by decide +kernel
  have h4 : bitLen ((29 : ℕ) : Int) = 5 := by decide +kernel
  simp only [h1, h2, h3, h4]
  rfl

end Tss.SafePrime
