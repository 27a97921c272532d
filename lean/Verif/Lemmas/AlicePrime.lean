import Verif.Lemmas.AliceUtils
namespace Tss.Alice
open Tss

theorem countBits_zero_of_ge (n bl f i : Nat) (h : bl ≤ i) : countBits n bl f i = 0 := by
  cases f with
  | zero => rfl
  | succ f => unfold countBits; rw [if_neg (by omega)]

theorem countBits_mod3 (n bl : Nat) (hn : n < 2 ^ bl) : ∀ (f i : Nat), bl ≤ i + 2 * f →
    (n / 2 ^ i) % 3 = (countBits n bl f i + 2 * countBits n bl f (i + 1)) % 3
  | 0, i, h => by
    have : n / 2 ^ i = 0 := Nat.div_eq_of_lt (lt_of_lt_of_le hn (Nat.pow_le_pow_right (by norm_num) (by omega)))
    simp [this, countBits]
  | f + 1, i, h => by
    by_cases hi : bl ≤ i
    · rw [countBits_zero_of_ge _ _ _ _ hi, countBits_zero_of_ge _ _ _ _ (by omega),
        Nat.div_eq_of_lt (lt_of_lt_of_le hn (Nat.pow_le_pow_right (by norm_num) hi))]
    have ih := countBits_mod3 n bl hn f (i + 2) (by omega)
    have e2 : n / 2 ^ (i + 2) = n / 2 ^ i / 4 := by rw [pow_add, Nat.div_div_eq_div_mul]; norm_num
    have e1 : n / 2 ^ (i + 1) = n / 2 ^ i / 2 := by rw [pow_add, Nat.div_div_eq_div_mul, pow_one]
    rw [e2] at ih
    rw [countBits, if_pos (by omega), Nat.testBit_eq_decide_div_mod_eq]
    have h1 : countBits n bl (f + 1) (i + 1) =
        (if n / 2 ^ (i + 1) % 2 = 1 then 1 else 0) + countBits n bl f (i + 2 + 1) := by
      rw [countBits, Nat.testBit_eq_decide_div_mod_eq]
      split
      · simp [Nat.add_right_comm]
      · rw [countBits_zero_of_ge _ _ _ _ (by omega)]
        have : n / 2 ^ (i + 1) = 0 :=
          Nat.div_eq_of_lt (lt_of_lt_of_le hn (Nat.pow_le_pow_right (by norm_num) (by omega)))
        simp [this]
    rw [h1, e1]
    generalize n / 2 ^ i = x at *
    simp only [decide_eq_true_eq]
    split <;> split <;> omega

theorem FastMod3_eq (n : Nat) : FastMod3 n = n % 3 := by
  unfold FastMod3
  simp only
  have h := countBits_mod3 n (bitLen n) (Common.lt_two_pow_bitLen n) (bitLen n) 0 (by omega)
  simp only [pow_zero, Nat.div_one, Nat.zero_add] at h
  rw [h]
  split <;> omega

/-! ### the sieve -/

theorem checkResidues_iff (mm : Nat) (l : List Nat) (hodd : ∀ p ∈ l, p % 2 = 1) :
    checkResidues mm l = false ↔ ∃ p ∈ l, p ∣ mm ∨ p ∣ 2 * mm + 1 := by
  induction l with
  | nil => simp [checkResidues]
  | cons p t ih =>
    have hp := hodd p (by simp)
    have key : (mm % p = 0 ∨ mm % p = p / 2) ↔ (p ∣ mm ∨ p ∣ 2 * mm + 1) := by
      rw [Nat.dvd_iff_mod_eq_zero, Nat.dvd_iff_mod_eq_zero]
      refine or_congr_right ?_
      have hlt : mm % p < p := Nat.mod_lt _ (by omega)
      have : (2 * mm + 1) % p = (2 * (mm % p) + 1) % p := by
        rw [Nat.add_mod, Nat.mul_mod, Nat.add_mod (2 * (mm % p)), Nat.mul_mod 2 (mm % p), Nat.mod_mod]
      rw [this]
      generalize mm % p = r at *
      constructor
      · intro h
        rw [show 2 * r + 1 = p by omega, Nat.mod_self]
      · intro h
        have hd := Nat.dvd_of_mod_eq_zero h
        obtain ⟨k, hk⟩ := hd
        have : k = 1 := by
          rcases k with _ | _ | k
          · omega
          · rfl
          · nlinarith
        subst this
        omega
    unfold checkResidues
    simp only [List.exists_mem_cons_iff, ← key]
    have ih' := ih (fun q hq => hodd q (by simp [hq]))
    by_cases h0 : mm % p = 0
    · simp [h0]
    · by_cases h1 : mm % p = p / 2
      · simp [h1]
      · simp only [h0, h1, if_false, false_or]; exact ih'

/-- every prime of a row is odd and divides the row's product -/
theorem table_ok : ∀ row ∈ primeTable, ∀ p ∈ row.2, p % 2 = 1 ∧ row.1 % p = 0 := by decide +kernel

/-- the primes the sieve tries -/
def sievePrimes : List Nat := primeTable.flatMap (·.2)

theorem checkSafePrimes_iff (m : Nat) {row : Nat × List Nat} (hrow : row ∈ primeTable) :
    checkSafePrimes m row.1 row.2 = false ↔ ∃ p ∈ row.2, p ∣ m ∨ p ∣ 2 * m + 1 := by
  unfold checkSafePrimes
  rw [checkResidues_iff _ _ (fun p hp => (table_ok row hrow p hp).1)]
  refine exists_congr fun p => and_congr_right fun hp => ?_
  have hd : p ∣ row.1 := Nat.dvd_of_mod_eq_zero (table_ok row hrow p hp).2
  have h1 : m % row.1 ≡ m [MOD p] := (Nat.mod_modEq m row.1).of_dvd hd
  rw [Nat.dvd_iff_mod_eq_zero, Nat.dvd_iff_mod_eq_zero, Nat.dvd_iff_mod_eq_zero, Nat.dvd_iff_mod_eq_zero]
  have h2 : 2 * (m % row.1) + 1 ≡ 2 * m + 1 [MOD p] := (h1.mul_left 2).add_right 1
  rw [show m % row.1 % p = m % p from h1, show (2 * (m % row.1) + 1) % p = (2 * m + 1) % p from h2]

theorem sieve_iff (m : Nat) : sieve m = false ↔ ∃ p ∈ sievePrimes, p ∣ m ∨ p ∣ 2 * m + 1 := by
  unfold sieve sievePrimes
  rw [List.all_eq_false]
  constructor
  · rintro ⟨row, hrow, h⟩
    rw [Bool.not_eq_true, checkSafePrimes_iff m hrow] at h
    obtain ⟨p, hp, h⟩ := h
    exact ⟨p, List.mem_flatMap.2 ⟨row, hrow, hp⟩, h⟩
  · rintro ⟨p, hp, h⟩
    obtain ⟨row, hrow, hp⟩ := List.mem_flatMap.1 hp
    exact ⟨row, hrow, by rw [Bool.not_eq_true, checkSafePrimes_iff m hrow]; exact ⟨p, hp, h⟩⟩

/-! ### Pocklington -/

theorem pocklington (q : Nat) (hq : q.Prime) (h : (2 : ZMod (2 * q + 1)) ^ (2 * q) = 1) :
    (2 * q + 1).Prime := by
  have hq2 := hq.two_le
  -- every prime factor is 3 or the whole number
  have key : ∀ r, r.Prime → r ∣ 2 * q + 1 → r = 3 ∨ r = 2 * q + 1 := by
    intro r hr hd
    have : Fact r.Prime := ⟨hr⟩
    have h2 : (2 : ZMod r) ^ (2 * q) = 1 := by
      have := congrArg (ZMod.castHom hd (ZMod r)) h
      rw [map_pow, map_ofNat, map_one] at this
      exact this
    have hodd : r ≠ 2 := by
      rintro rfl
      omega
    have h20 : (2 : ZMod r) ≠ 0 := by
      intro h0
      have : ((2 : Nat) : ZMod r) = 0 := by exact_mod_cast h0
      rw [ZMod.natCast_eq_zero_iff] at this
      have := Nat.le_of_dvd (by norm_num) this
      have := hr.two_le
      omega
    have ho1 : orderOf (2 : ZMod r) ∣ 2 * q := orderOf_dvd_of_pow_eq_one h2
    have ho2 : orderOf (2 : ZMod r) ∣ r - 1 := ZMod.orderOf_dvd_card_sub_one h20
    by_cases hqd : q ∣ orderOf (2 : ZMod r)
    · right
      have hqr : q ∣ r - 1 := hqd.trans ho2
      have hr1 : q ≤ r - 1 := Nat.le_of_dvd (by have := hr.two_le; omega) hqr
      obtain ⟨k, hk⟩ := hd
      rcases k with _ | _ | _ | k
      · omega
      · omega
      · omega
      · have h1 : r * 3 ≤ r * (k + 1 + 1 + 1) := Nat.mul_le_mul_left r (by omega)
        have := hr.two_le
        omega
    · left
      have hcop : Nat.Coprime (orderOf (2 : ZMod r)) q := by
        rw [Nat.coprime_comm]
        exact (Nat.Prime.coprime_iff_not_dvd hq).2 hqd
      have ho3 : orderOf (2 : ZMod r) ∣ 2 := hcop.dvd_of_dvd_mul_right ho1
      have h4 : (2 : ZMod r) ^ 2 = 1 := orderOf_dvd_iff_pow_eq_one.1 ho3
      have h5 : ((3 : Nat) : ZMod r) = 0 := by
        have : (4 : ZMod r) = 1 := by rw [← h4]; norm_num
        have h6 : (4 : ZMod r) - 1 = 0 := by rw [this]; ring
        push_cast
        rw [← h6]; norm_num
      rw [ZMod.natCast_eq_zero_iff] at h5
      exact (Nat.prime_dvd_prime_iff_eq hr Nat.prime_three).1 h5
  by_contra hnp
  -- otherwise 3 is the only prime factor
  have h3 : ∀ r, r.Prime → r ∣ 2 * q + 1 → r = 3 := by
    intro r hr hd
    rcases key r hr hd with h | h
    · exact h
    · subst h; exact absurd hr hnp
  obtain ⟨k, hk⟩ : ∃ k, 2 * q + 1 = 3 ^ k := by
    refine ⟨_, Nat.eq_prime_pow_of_unique_prime_dvd (by omega) ?_⟩
    intro d hd hdv
    exact h3 d hd hdv
  rcases k with _ | _ | k
  · omega
  · exact hnp (by rw [hk]; norm_num)
  · have h9 : 9 ∣ 2 * q + 1 := ⟨3 ^ k, by rw [hk]; ring⟩
    have h2 : (2 : ZMod 9) ^ (2 * q) = 1 := by
      have := congrArg (ZMod.castHom h9 (ZMod 9)) h
      rw [map_pow, map_ofNat, map_one] at this
      exact this
    have hq3 : 3 ∣ q := by
      have h4 : (4 : ZMod 9) ^ q = 1 := by rw [← h2, pow_mul]; norm_num
      have ho : orderOf (4 : ZMod 9) = 3 := by
        rw [orderOf_eq_prime_iff]
        decide
      rw [← ho]
      exact orderOf_dvd_of_pow_eq_one h4
    have : q = 3 := ((Nat.prime_dvd_prime_iff_eq Nat.prime_three hq).1 hq3).symm
    subst this
    exact hnp (by norm_num)

theorem checkPocklington_iff (q : Nat) :
    checkPrimeByPocklingtonCriterion (2 * q) (2 * q + 1) = true ↔ 2 ^ (2 * q) % (2 * q + 1) = 1 := by
  unfold checkPrimeByPocklingtonCriterion bigExp
  rw [decide_eq_true_iff, if_neg (by omega), if_neg (by omega)]
  simp only [Option.some.injEq, Int.toNat_natCast]
  norm_cast

/-! ### the search -/

theorem adjust_mod3 (q : Nat) : adjust q % 3 = 2 := by
  unfold adjust
  simp only [FastMod3_eq]
  have h : q % prime3Product % 3 = q % 3 := Nat.mod_mod_of_dvd q (by decide)
  rw [h]
  split
  · omega
  · split <;> omega

theorem adjust_odd (q : Nat) (h : q % 2 = 1) : adjust q % 2 = 1 := by
  unfold adjust; simp only
  split
  · omega
  · split <;> omega

theorem deltaLoop_spec {isPrime : Nat → Bool} {pbits q : Nat} : ∀ (f delta r : Nat), delta % 6 = 0 →
    deltaLoop isPrime pbits q f delta = some r → accepts isPrime pbits r = true ∧ r % 6 = q % 6 ∧ q ≤ r ∧ r < q + 1024
  | 0, _, _, _, h => by simp [deltaLoop] at h
  | f + 1, delta, r, hd, h => by
    unfold deltaLoop at h
    split at h
    · split at h
      · simp only [Option.some.injEq] at h; subst h
        exact ⟨by assumption, by omega, by omega, by omega⟩
      · exact deltaLoop_spec f (delta + 6) r (by omega) h
    · simp at h

theorem or_one_odd (x : UInt8) : (x ||| 1).toNat % 2 = 1 := by
  rw [UInt8.toNat_or]
  have : (x.toNat ||| 1) % 2 = 1 := by
    rw [Nat.or_mod_two_eq_one]; right; rfl
  exact this

theorem setLow_odd : ∀ b : Bytes, b ≠ [] → beNat (shape.setLow b) % 2 = 1
  | [], h => by simp at h
  | [x], _ => by
    rw [shape.setLow, beNat_cons]
    simp only [List.length_nil, pow_zero, mul_one]
    have := or_one_odd x
    simp [beNat]
  | x :: y :: t, _ => by
    rw [shape.setLow, beNat_cons]
    have ih := setLow_odd (y :: t) (by simp)
    have hl : ∀ b : Bytes, (shape.setLow b).length = b.length := by
      intro b
      induction b with
      | nil => rfl
      | cons a t ih => cases t with
        | nil => rfl
        | cons c t => simp only [shape.setLow, List.length_cons] at ih ⊢; omega
    rw [hl, List.length_cons, pow_succ, ← Nat.mul_assoc]
    omega

theorem shape_odd (b : Nat) (l : Bytes) (h : l ≠ []) : beNat (shape b l) % 2 = 1 := by
  cases l with
  | nil => simp at h
  | cons x t =>
    unfold shape
    simp only
    split
    · exact setLow_odd _ (by simp)
    · cases t with
      | nil => exact setLow_odd _ (by simp)
      | cons y t => exact setLow_odd _ (by simp)

theorem safePrimeLoop_spec {isPrime : Nat → Bool} {pbits : Nat} (hp : 2 ≤ pbits) :
    ∀ (f : Nat) (tape : Bytes) (P Q : Nat), safePrimeLoop isPrime pbits f tape = some (.ok (P, Q)) →
      P = 2 * Q + 1 ∧ accepts isPrime pbits Q = true ∧ Q % 6 = 5
  | 0, _, _, _, h => by simp [safePrimeLoop] at h
  | f + 1, tape, P, Q, h => by
    unfold safePrimeLoop at h
    simp only at h
    cases hr : Common.readFull ((pbits - 1 + 7) / 8) tape with
    | none => rw [hr] at h; simp at h
    | some br =>
      obtain ⟨bytes, rest⟩ := br
      rw [hr] at h
      simp only at h
      generalize (if (pbits - 1) % 8 = 0 then 8 else (pbits - 1) % 8) = b at h
      cases hd : deltaLoop isPrime pbits (adjust (beNat (shape b bytes))) 171 0 with
      | none => rw [hd] at h; exact safePrimeLoop_spec hp f rest P Q h
      | some q =>
        rw [hd] at h
        simp only [Option.some.injEq, Res.ok.injEq, Prod.mk.injEq] at h
        obtain ⟨rfl, rfl⟩ := h
        obtain ⟨ha, hm, -, -⟩ := deltaLoop_spec _ _ _ (by norm_num) hd
        refine ⟨rfl, ha, ?_⟩
        have hne : bytes ≠ [] := by
          unfold Common.readFull at hr
          split at hr
          · simp at hr
          · simp only [Option.some.injEq, Prod.mk.injEq] at hr
            rw [← hr.1]
            intro h0
            have := congrArg List.length h0
            rw [List.length_take, List.length_nil] at this
            omega
        have h1 := adjust_odd _ (shape_odd b bytes hne)
        have h2 := adjust_mod3 (beNat (shape b bytes))
        omega

end Tss.Alice
