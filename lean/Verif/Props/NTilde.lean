import Verif.Model.NTilde
import Verif.Lemmas.Common
import Mathlib.Data.Int.Basic
import Mathlib.RingTheory.Coprime.Lemmas
import Mathlib.RingTheory.Int.Basic
import Mathlib.Data.Int.ModEq
/-
Property C71 (generation of NTilde, h1, h2 and of random primes).
-/
namespace Tss.NTilde
open Tss Common

theorem residue_ok {n : Int} {fuel : Nat} {tape rest : Bytes} {h : Int} (hn : 0 < n)
    (e : GetRandomGeneratorOfTheQuadraticResidue (some n) fuel tape = some (.ok (h, rest))) :
    ∃ f, 1 ≤ f ∧ f < n ∧ Int.gcd f n = 1 ∧ h = f * f % n := by
  unfold GetRandomGeneratorOfTheQuadraticResidue GetRandomPositiveRelativelyPrimeInt at e
  simp only [hn, not_true_eq_false, if_false] at e
  cases hr : relPrimeLoop n fuel tape with
  | none => rw [hr] at e; simp at e
  | some r =>
    rw [hr] at e
    cases r with
    | panic => simp at e
    | err _ => simp at e
    | ok v =>
      obtain ⟨f, r'⟩ := v
      obtain ⟨f, rfl, hf⟩ := relPrimeLoop_range fuel tape f r' hr
      simp only [Option.getD_some, Option.some.injEq, Res.ok.injEq, Prod.mk.injEq] at e
      obtain ⟨rfl, -⟩ := e
      simp only [IsNumberInMultiplicativeGroup, hn, not_true_eq_false, if_false, Bool.and_eq_true, decide_eq_true_eq, beq_iff_eq] at hf
      exact ⟨f, hf.1.2, hf.1.1, hf.2, rfl⟩

/-- C71: on success NTilde is the product of the two numbers, both of which passed the primality test, and each base is in [0, NTilde),
invertible and the square of an invertible number. -/
theorem C71_ntilde {pp : Int → Bool} {p q : Option Int} {fuel : Nat} {tape rest : Bytes} {N h1 h2 : Int}
    (hpos : ∀ z, pp z = true → 0 < z) (e : GenerateNTildei pp p q fuel tape = some (.ok (N, h1, h2, rest))) :
    ∃ p' q', p = some p' ∧ q = some q' ∧ pp p' = true ∧ pp q' = true ∧ N = p' * q' ∧
      ∀ h ∈ [h1, h2], 0 ≤ h ∧ h < N ∧ Int.gcd h N = 1 ∧ ∃ f, Int.gcd f N = 1 ∧ h ≡ f ^ 2 [ZMOD N] := by
  unfold GenerateNTildei at e
  cases p with
  | none => simp at e
  | some p =>
    cases q with
    | none => simp at e
    | some q =>
      simp only at e
      by_cases hp : (!pp p || !pp q) = true
      · rw [if_pos hp] at e; simp at e
      · rw [if_neg hp] at e
        simp only [Bool.or_eq_true, Bool.not_eq_true', not_or, Bool.not_eq_false] at hp
        have hn : 0 < p * q := mul_pos (hpos p hp.1) (hpos q hp.2)
        have key : ∀ h t r, GetRandomGeneratorOfTheQuadraticResidue (some (p * q)) fuel t = some (.ok (h, r)) →
            0 ≤ h ∧ h < p * q ∧ Int.gcd h (p * q) = 1 ∧ ∃ f, Int.gcd f (p * q) = 1 ∧ h ≡ f ^ 2 [ZMOD p * q] := by
          intro h t r hh
          obtain ⟨f, f1, f2, f3, rfl⟩ := residue_ok hn hh
          refine ⟨Int.emod_nonneg _ (by omega), Int.emod_lt_of_pos _ hn, ?_, f, f3, ?_⟩
          · have : Int.gcd (f * f) (p * q) = 1 := by
              rw [← Int.isCoprime_iff_gcd_eq_one] at f3 ⊢; exact f3.mul_left f3
            rw [Int.gcd_emod, this]
          · rw [pow_two]; exact Int.mod_modEq _ _
        cases g1 : GetRandomGeneratorOfTheQuadraticResidue (some (p * q)) fuel tape with
        | none => rw [g1] at e; simp at e
        | some r1 =>
          rw [g1] at e
          cases r1 with
          | panic => simp at e
          | err _ => simp at e
          | ok v1 =>
            obtain ⟨a1, t1⟩ := v1
            simp only at e
            cases g2 : GetRandomGeneratorOfTheQuadraticResidue (some (p * q)) fuel t1 with
            | none => rw [g2] at e; simp at e
            | some r2 =>
              rw [g2] at e
              cases r2 with
              | panic => simp at e
              | err _ => simp at e
              | ok v2 =>
                obtain ⟨a2, t2⟩ := v2
                simp only [Option.some.injEq, Res.ok.injEq, Prod.mk.injEq] at e
                obtain ⟨rfl, rfl, rfl, rfl⟩ := e
                refine ⟨p, q, rfl, rfl, hp.1, hp.2, rfl, ?_⟩
                intro h hh
                simp only [List.mem_cons, List.not_mem_nil, or_false] at hh
                rcases hh with rfl | rfl
                · exact key _ _ _ g1
                · exact key _ _ _ g2

/-- C71: a nil or composite argument is an error, before any randomness is read. -/
theorem C71_ntilde_refuses (pp : Int → Bool) (p q : Option Int) (fuel : Nat) (tape : Bytes)
    (h : p = none ∨ q = none ∨ (∃ z, (p = some z ∨ q = some z) ∧ pp z = false)) :
    GenerateNTildei pp p q fuel tape = some (.err ()) := by
  unfold GenerateNTildei
  cases p with
  | none => cases q <;> rfl
  | some p =>
    cases q with
    | none => rfl
    | some q =>
      simp only
      rw [if_pos]
      rcases h with h | h | ⟨z, h | h, hz⟩
      · cases h
      · cases h
      · injection h with h; subst h; simp [hz]
      · injection h with h; subst h; simp [hz]

/-- C71: a prime comes from crypto/rand.Prime or passed the library's own test; zero bits or fewer give nil. -/
theorem C71_prime {pp : Int → Bool} {drawn : Option Int} {bits : Int} {fuel : Nat} {tape rest : Bytes} {r : Option Int}
    (h : GetRandomPrimeInt pp drawn bits fuel tape = some (.ok (r, rest))) :
    (bits ≤ 0 ∧ r = none) ∨ (0 < bits ∧ ∃ z, r = some z ∧ ((drawn = some z ∧ z ≠ 0) ∨
      ((drawn = none ∨ drawn = some 0) ∧ pp z = true ∧ 0 ≤ z ∧ z < 2 ^ bits.toNat - 1))) := by
  have key : ∀ f t, primeLoop pp bits f t = some (.ok (r, rest)) → ∃ z, r = some z ∧ pp z = true ∧ 0 ≤ z ∧ z < 2 ^ bits.toNat - 1 := by
    intro f
    induction f with
    | zero => intro t h; simp [primeLoop] at h
    | succ f ih =>
      intro t h
      unfold primeLoop at h
      cases hm : MustGetRandomInt bits t with
      | panic => rw [hm] at h; simp at h
      | err _ => rw [hm] at h; simp at h
      | ok v =>
        obtain ⟨v, t'⟩ := v
        rw [hm] at h
        simp only at h
        by_cases hp : pp v = true
        · rw [if_pos hp] at h
          simp only [Option.some.injEq, Res.ok.injEq, Prod.mk.injEq] at h
          obtain ⟨rfl, -⟩ := h
          exact ⟨v, rfl, hp, (MustGetRandomInt_range hm).2.2⟩
        · rw [if_neg hp] at h; exact ih t' h
  unfold GetRandomPrimeInt at h
  by_cases hb : bits ≤ 0
  · rw [if_pos hb] at h
    simp only [Option.some.injEq, Res.ok.injEq, Prod.mk.injEq] at h
    exact Or.inl ⟨hb, h.1.symm⟩
  · rw [if_neg hb] at h
    right
    refine ⟨by omega, ?_⟩
    cases drawn with
    | none =>
      obtain ⟨z, h1, h2⟩ := key _ _ h
      exact ⟨z, h1, Or.inr ⟨Or.inl rfl, h2⟩⟩
    | some t =>
      simp only at h
      by_cases ht : t = 0
      · rw [if_pos ht] at h
        obtain ⟨z, h1, h2⟩ := key _ _ h
        exact ⟨z, h1, Or.inr ⟨Or.inr (by rw [ht]), h2⟩⟩
      · rw [if_neg ht] at h
        simp only [Option.some.injEq, Res.ok.injEq, Prod.mk.injEq] at h
        exact ⟨t, h.1.symm, Or.inl ⟨rfl, ht⟩⟩

/-- C71: asked for one bit, crypto/rand.Prime reports an error and the fallback can only draw 0, which is no prime: the call never
returns (it panics if the reader fails). -/
theorem C71_one_bit_hangs {pp : Int → Bool} (h0 : pp 0 = false) (fuel : Nat) (tape : Bytes) (r : Option Int × Bytes) :
    GetRandomPrimeInt pp none 1 fuel tape ≠ some (.ok r) := by
  intro h
  obtain ⟨r, rest⟩ := r
  rcases C71_prime h with ⟨h1, _⟩ | ⟨_, z, _, ⟨h2, _⟩ | ⟨_, h3, h4, h5⟩⟩
  · omega
  · cases h2
  · have : z = 0 := by norm_num at h5; omega
    rw [this, h0] at h3; cases h3

/-- Two primes, a tape that draws 2 twice: 35, 4, 4. -/
example : GenerateNTildei (fun z => decide (z = 5 ∨ z = 7)) (some 5) (some 7) 3 [2, 2] = some (.ok (35, 4, 4, [])) := by decide +kernel

example : GetRandomPrimeInt (fun z => decide (z = 5)) none 3 3 [4, 5] = some (.ok (some 5, [])) := by decide +kernel

end Tss.NTilde
