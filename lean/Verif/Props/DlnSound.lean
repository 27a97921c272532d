import Verif.Props.Dln
import Mathlib.SetTheory.Cardinal.Finite
import Mathlib.Data.Int.GCD
/-
C126: what a discrete-logarithm proof about ring parameters proves.
-/
namespace Tss.Dln
open Tss Common Commit

/-! ### Specification -/

/-- The string `β` of 128 challenge bits can be answered for the commitments `al`: there are 128 responses that satisfy the equations. -/
def spec.Answerable (h1 h2 N : Int) (al : List Int) (β : Fin 128 → Bool) : Prop :=
  ∃ ts : List Int, ts.length = 128 ∧ (∀ t ∈ ts, 0 ≤ t) ∧ ∀ i : Fin 128, spec.Eqn h1 h2 N (al.getD i 0) (ts.getD i 0) (β i)

/-- The statement to be proved: `h2` is a power of `h1`. -/
def spec.Power (h1 h2 N : Int) : Prop := ∃ x : Nat, h2 ≡ h1 ^ x [ZMOD N]

/-! ### Proofs -/

/-- C126. An accepted proof answers the string of the 128 low bits of the hash. -/
theorem C126_accepted_answerable (H : Bytes → Bytes) (h1 h2 N : Int) (al ts : List Int) (hl : al.length = 128) (hl' : ts.length = 128)
    (hp : ∀ t ∈ ts, 0 ≤ t) (hv : Verify H (some ⟨al.map some, ts.map some⟩) h1 h2 N = .ok true) :
    spec.Answerable h1 h2 N al (fun i => (spec.chal H h1 h2 N al).testBit i) := by
  obtain ⟨-, -, -, -, -, -, e⟩ := (C42_verify_iff H h1 h2 N al ts hl hl' hp).mp hv
  exact ⟨ts, hl', hp, fun i => e i i.2⟩

/-- C126. Two strings that can be answered for the same commitments give a relation between the bases. -/
theorem C126_two_strings (h1 h2 N : Int) (al : List Int) (β β' : Fin 128 → Bool) (h : spec.Answerable h1 h2 N al β)
    (h' : spec.Answerable h1 h2 N al β') (hne : β ≠ β') : ∃ a b : Nat, h1 ^ a ≡ h1 ^ b * h2 [ZMOD N] := by
  obtain ⟨i, hi⟩ := Function.ne_iff.1 hne
  obtain ⟨ts, -, -, e⟩ := h
  obtain ⟨ts', -, -, e'⟩ := h'
  have a1 := e i
  have a2 := e' i
  unfold spec.Eqn at a1 a2
  cases hb : β i <;> cases hb' : β' i
  · rw [hb, hb'] at hi; exact absurd rfl hi
  · rw [hb] at a1; rw [hb'] at a2
    simp only [if_true, Bool.false_eq_true, if_false, mul_one] at a1 a2
    exact ⟨_, _, a2.trans (a1.symm.mul_right h2)⟩
  · rw [hb] at a1; rw [hb'] at a2
    simp only [if_true, Bool.false_eq_true, if_false, mul_one] at a1 a2
    exact ⟨_, _, a1.trans (a2.symm.mul_right h2)⟩
  · rw [hb, hb'] at hi; exact absurd rfl hi

theorem unit_of_gcd {z N : Int} (hg : Int.gcd z N = 1) : ∃ w : Int, z * w ≡ 1 [ZMOD N] := by
  refine ⟨Int.gcdA z N, ?_⟩
  have h := Int.gcd_eq_gcd_ab z N
  rw [hg] at h
  rw [Int.modEq_iff_dvd]
  exact ⟨Int.gcdB z N, by push_cast at h; linarith⟩

theorem cancel_unit {z w x y N : Int} (hw : z * w ≡ 1 [ZMOD N]) (k : Nat) (h : z ^ k * x ≡ z ^ k * y [ZMOD N]) : x ≡ y [ZMOD N] := by
  have hk : z ^ k * w ^ k ≡ 1 [ZMOD N] := by
    rw [← mul_pow]
    simpa using hw.pow k
  have e : ∀ u : Int, w ^ k * (z ^ k * u) ≡ u [ZMOD N] := by
    intro u
    have := (hk.mul_right u)
    rw [one_mul] at this
    have e2 : w ^ k * (z ^ k * u) = z ^ k * w ^ k * u := by ring
    rw [e2]; exact this
  exact (e x).symm.trans ((h.mul_left (w ^ k)).trans (e y))

/-- A relation between the bases makes `h2` a power of `h1`, if `h1` is a unit. -/
theorem power_of_relation {h1 h2 N : Int} (hN : 0 < N) (hg : Int.gcd h1 N = 1) {a b : Nat} (h : h1 ^ a ≡ h1 ^ b * h2 [ZMOD N]) :
    spec.Power h1 h2 N := by
  obtain ⟨w, hw⟩ := unit_of_gcd hg
  -- a power of h1 that is 1
  obtain ⟨m, hm, hone⟩ : ∃ m : Nat, 0 < m ∧ h1 ^ m ≡ 1 [ZMOD N] := by
    have hfin : ¬ Function.Injective fun k : Fin (N.toNat + 1) => ((h1 ^ (k : Nat)) % N).toNat := by
      intro hi
      have hlt : ∀ k : Fin (N.toNat + 1), ((h1 ^ (k : Nat)) % N).toNat < N.toNat := by
        intro k
        have := Int.emod_nonneg (h1 ^ (k : Nat)) hN.ne'
        have := Int.emod_lt_of_pos (h1 ^ (k : Nat)) hN
        omega
      have := Fintype.card_le_of_injective (fun k : Fin (N.toNat + 1) => (⟨_, hlt k⟩ : Fin N.toNat)) (fun x y e => hi (by
        simpa using congrArg Fin.val e))
      simp at this
    have key : ∀ i j : Nat, i < j → ((h1 ^ i) % N).toNat = ((h1 ^ j) % N).toNat → ∃ m : Nat, 0 < m ∧ h1 ^ m ≡ 1 [ZMOD N] := by
      intro i j hij e
      have n1 := Int.emod_nonneg (h1 ^ i) hN.ne'
      have n2 := Int.emod_nonneg (h1 ^ j) hN.ne'
      have e' : h1 ^ i % N = h1 ^ j % N := by omega
      refine ⟨j - i, by omega, ?_⟩
      apply cancel_unit hw i
      rw [← pow_add, mul_one, show i + (j - i) = j by omega]
      exact e'.symm
    simp only [Function.Injective, not_forall] at hfin
    obtain ⟨i, j, e, hne⟩ := hfin
    have hv : (i : Nat) ≠ j := fun x => hne (Fin.ext x)
    rcases Nat.lt_or_ge i j with hlt | hge
    · exact key i j hlt e
    · exact key j i (by omega) e.symm
  -- h1^(a + b*(m-1)) = h2
  refine ⟨a + b * (m - 1), ?_⟩
  have h2' : h1 ^ (b * (m - 1)) * h1 ^ a ≡ h1 ^ (b * (m - 1)) * (h1 ^ b * h2) [ZMOD N] := h.mul_left _
  have e1 : h1 ^ (b * (m - 1)) * (h1 ^ b * h2) = (h1 ^ m) ^ b * h2 := by
    rw [← mul_assoc, ← pow_add, ← pow_mul]
    congr 2
    obtain ⟨m', rfl⟩ : ∃ m', m = m' + 1 := ⟨m - 1, by omega⟩
    rw [Nat.add_sub_cancel]; ring
  rw [e1, ← pow_add] at h2'
  have h3 : (h1 ^ m) ^ b * h2 ≡ h2 [ZMOD N] := by
    have := (hone.pow b).mul_right h2
    simpa using this
  rw [Nat.add_comm]
  exact (h2'.trans h3).symm

/-- C126. Soundness. Let `h1` be prime to the modulus. If `h2` is not a power of `h1`, then whatever the commitments are, at most one of the
2^128 strings of challenge bits can be answered. -/
theorem C126_false_statement (h1 h2 N : Int) (hN : 0 < N) (hg : Int.gcd h1 N = 1) (hf : ¬ spec.Power h1 h2 N) (al : List Int) :
    Nat.card {β : Fin 128 → Bool // spec.Answerable h1 h2 N al β} ≤ 1 ∧ Nat.card (Fin 128 → Bool) = 2 ^ 128 := by
  refine ⟨?_, by simp⟩
  have : Subsingleton {β : Fin 128 → Bool // spec.Answerable h1 h2 N al β} := by
    refine ⟨fun x y => Subtype.ext ?_⟩
    by_contra hne
    obtain ⟨a, b, h⟩ := C126_two_strings h1 h2 N al x.1 y.1 x.2 y.2 hne
    exact hf (power_of_relation hN hg h)
  exact Finite.card_le_one_iff_subsingleton.2 this

theorem getD_map_range {α : Type} (f : Nat → α) (d : α) (i : Fin 128) : ((List.range 128).map f).getD i d = f i := by
  rw [List.getD_eq_getElem?_getD, List.getElem?_map, List.getElem?_range i.2]
  rfl

/-- C126. The bound is exact: a prover can always answer one string that it guesses before, if `h2` is prime to the modulus. -/
theorem C126_guess (h1 h2 N : Int) (hg : Int.gcd h2 N = 1) (β : Fin 128 → Bool) (ts : List Int) (hl : ts.length = 128) (hp : ∀ t ∈ ts, 0 ≤ t) :
    ∃ al : List Int, al.length = 128 ∧ spec.Answerable h1 h2 N al β ∧ ∀ i : Fin 128, spec.Eqn h1 h2 N (al.getD i 0) (ts.getD i 0) (β i) := by
  obtain ⟨w, hw⟩ := unit_of_gcd hg
  have key : ∃ al : List Int, al.length = 128 ∧ ∀ i : Fin 128, spec.Eqn h1 h2 N (al.getD i 0) (ts.getD i 0) (β i) := by
    refine ⟨(List.range 128).map fun i => h1 ^ (ts.getD i 0).toNat * (if hi : i < 128 then (if β ⟨i, hi⟩ then w else 1) else 1), by simp, ?_⟩
    intro i
    rw [getD_map_range]
    unfold spec.Eqn
    rw [dif_pos i.2]
    show _ ≡ h1 ^ (ts.getD i 0).toNat * (if β i then w else 1) * (if β i then h2 else 1) [ZMOD N]
    cases β i
    · simp only [Bool.false_eq_true, if_false, mul_one]
      exact Int.ModEq.rfl
    · simp only [if_true]
      have := hw.mul_left (h1 ^ (ts.getD i 0).toNat)
      rw [mul_one] at this
      have e : h1 ^ (ts.getD i 0).toNat * w * h2 = h1 ^ (ts.getD i 0).toNat * (h2 * w) := by ring
      rw [e]
      exact this.symm
  obtain ⟨al, a1, a2⟩ := key
  exact ⟨al, a1, ⟨ts, hl, hp, a2⟩, a2⟩

/-- C126. For a true statement every string can be answered, when the commitments are powers of `h1`. -/
theorem C126_true_statement (h1 h2 N : Int) (h : spec.Power h1 h2 N) (a : Nat → Nat) (β : Fin 128 → Bool) :
    spec.Answerable h1 h2 N ((List.range 128).map fun i => h1 ^ a i) β := by
  obtain ⟨x, hx⟩ := h
  refine ⟨(List.range 128).map fun i => ((a i + (if hi : i < 128 then (if β ⟨i, hi⟩ then x else 0) else 0) : Nat) : Int), by simp, ?_, ?_⟩
  · intro t ht
    obtain ⟨i, -, rfl⟩ := List.mem_map.1 ht
    exact Int.natCast_nonneg _
  · intro i
    rw [getD_map_range, getD_map_range, dif_pos i.2]
    unfold spec.Eqn
    rw [Int.toNat_natCast]
    show h1 ^ (a i + if β i then x else 0) ≡ _ [ZMOD N]
    cases β i
    · simp only [Bool.false_eq_true, if_false, mul_one, Nat.add_zero]
      exact Int.ModEq.rfl
    · simp only [if_true]
      rw [pow_add]
      exact (hx.symm.mul_left _)

/-- C126. Deviation: the verifier does not check that the bases are prime to the modulus. Let N = P·Q and let `e` be 1 modulo P and 0 modulo Q.
Then for every `h2` that is 1 modulo P a proof with the same commitment and the same response everywhere is accepted, whatever the hash
function is - though `h2` is a power of `e` only if it is 1 or `e` modulo N. -/
theorem C126_base_not_coprime (P Q e h2 : Int) (hP : 1 < P) (hQ : 1 < Q) (heP : e ≡ 1 [ZMOD P]) (heQ : e ≡ 0 [ZMOD Q])
    (h2P : h2 ≡ 1 [ZMOD P]) (hc : Int.gcd P Q = 1) (n1 : ¬ h2 ≡ 1 [ZMOD P * Q]) (n2 : ¬ h2 ≡ e [ZMOD P * Q]) :
    (∀ H : Bytes → Bytes, Verify H (some ⟨(List.replicate 128 e).map some, (List.replicate 128 2).map some⟩) e h2 (P * Q) = .ok true) ∧
    ¬ spec.Power e h2 (P * Q) := by
  have hN : 1 < P * Q := by nlinarith
  have join : ∀ x y : Int, x ≡ y [ZMOD P] → x ≡ y [ZMOD Q] → x ≡ y [ZMOD P * Q] := by
    intro x y h1 h2
    rw [Int.modEq_iff_dvd] at *
    exact IsCoprime.mul_dvd (Int.isCoprime_iff_gcd_eq_one.2 hc) h1 h2
  have down : ∀ x y : Int, x ≡ y [ZMOD P * Q] → x ≡ y [ZMOD P] ∧ x ≡ y [ZMOD Q] := fun x y h =>
    ⟨h.of_mul_right Q, h.of_mul_left P⟩
  have not1 : ∀ m : Int, 1 < m → ¬ (1 : Int) ≡ 0 [ZMOD m] := by
    intro m hm h
    have := h.dvd
    have := Int.le_of_dvd (by norm_num) ((dvd_neg).1 (by simpa using this) : m ∣ 1)
    omega
  have big : ∀ x : Int, ¬ x ≡ 0 [ZMOD P * Q] → ¬ x ≡ 1 [ZMOD P * Q] → spec.NonTrivial (P * Q) x := by
    intro x h0 h1
    unfold spec.NonTrivial
    have a1 := Int.emod_nonneg x (by omega : P * Q ≠ 0)
    have b0 : x % (P * Q) ≠ 0 := fun h => h0 (by rw [Int.ModEq, h, Int.zero_emod])
    have b1 : x % (P * Q) ≠ 1 := fun h => h1 (by rw [Int.ModEq, h, Int.emod_eq_of_lt (by omega) hN])
    omega
  have e0 : ¬ e ≡ 0 [ZMOD P * Q] := fun h => not1 P hP (heP.symm.trans (down _ _ h).1)
  have e1 : ¬ e ≡ 1 [ZMOD P * Q] := fun h => not1 Q hQ ((down _ _ h).2.symm.trans heQ)
  have pows : ∀ k : Nat, e ^ (k + 1) ≡ e [ZMOD P * Q] := by
    intro k
    apply join
    · have := heP.pow (k + 1)
      rw [one_pow] at this
      exact this.trans heP.symm
    · have := heQ.pow (k + 1)
      rw [zero_pow (by omega)] at this
      exact this.trans heQ.symm
  refine ⟨fun H => ?_, ?_⟩
  · rw [C42_verify_iff H e h2 (P * Q) (List.replicate 128 e) (List.replicate 128 2) (by simp [Iterations]) (by simp [Iterations]) (by
      intro t ht; rw [List.eq_of_mem_replicate ht]; norm_num)]
    refine ⟨by omega, big e e0 e1, big h2 (fun h => not1 P hP (h2P.symm.trans (down _ _ h).1)) n1, fun h => n2 h.symm, ?_, ?_, ?_⟩
    · intro t ht
      rw [List.eq_of_mem_replicate ht]
      unfold spec.NonTrivial
      rw [Int.emod_eq_of_lt (by norm_num) (by nlinarith)]
      norm_num
    · intro t ht
      rw [List.eq_of_mem_replicate ht]
      exact big e e0 e1
    · intro i hi
      have g1 : (List.replicate 128 e).getD i 0 = e := by
        rw [List.getD_eq_getElem?_getD, List.getElem?_replicate, if_pos hi]; rfl
      have g2 : (List.replicate 128 (2 : Int)).getD i 0 = 2 := by
        rw [List.getD_eq_getElem?_getD, List.getElem?_replicate, if_pos hi]; rfl
      rw [g1, g2]
      unfold spec.Eqn
      refine (pows 1).trans ?_
      cases Nat.testBit _ i
      · simp only [Bool.false_eq_true, if_false, mul_one]
        exact Int.ModEq.rfl
      · simp only [if_true]
        apply join
        · have := h2P.mul_left e
          rw [mul_one] at this
          exact this.symm
        · have := heQ.mul_right h2
          rw [zero_mul] at this
          exact heQ.trans this.symm
  · rintro ⟨x, hx⟩
    cases x with
    | zero => exact n1 (by simpa using hx)
    | succ k => exact n2 (hx.trans (pows k))

/-- Non-vacuity. In the units modulo 35 the base 4 generates 1, 4, 16, 29, 11, 9, so 2 is not a power of it and 11 is. Modulo 15 with e = 10 the
number 4 is proved to be a power of 10, which it is not. -/
theorem C126_case : (Int.gcd 4 35 = 1 ∧ ¬ spec.Power 4 2 35 ∧ spec.Power 4 11 35) ∧
    ((∀ H : Bytes → Bytes, Verify H (some ⟨(List.replicate 128 10).map some, (List.replicate 128 2).map some⟩) 10 4 15 = .ok true) ∧
      ¬ spec.Power 10 4 15) := by
  refine ⟨⟨by decide, ?_, ⟨4, by decide⟩⟩, ?_⟩
  · rintro ⟨x, hx⟩
    have h6 : (4 : Int) ^ 6 ≡ 1 [ZMOD 35] := by decide
    have e : (4 : Int) ^ x ≡ 4 ^ (x % 6) [ZMOD 35] := by
      conv_lhs => rw [← Nat.div_add_mod x 6, pow_add, pow_mul]
      have := (h6.pow (x / 6)).mul_right (4 ^ (x % 6))
      simpa using this
    have hlt : x % 6 < 6 := Nat.mod_lt _ (by norm_num)
    have := hx.trans e
    generalize x % 6 = y at *
    interval_cases y <;> revert this <;> decide
  · exact C126_base_not_coprime 3 5 10 4 (by norm_num) (by norm_num) (by decide) (by decide) (by decide) (by decide) (by decide) (by decide)

end Tss.Dln
