import Mathlib.NumberTheory.LucasPrimality
import Mathlib.Tactic.NormNum.Prime
/-
Fast modular exponentiation for kernel evaluation, and a Pratt-certificate checker.  Proof tooling only.
-/
namespace Tss

/-- Square-and-multiply with fuel: `acc * a^n mod m`. -/
def powModAux (m : Nat) : Nat → Nat → Nat → Nat → Nat
  | 0, _, _, acc => acc % m
  | f + 1, a, n, acc =>
    if n = 0 then acc % m
    else powModAux m f (a * a % m) (n / 2) (if n % 2 = 1 then acc * a % m else acc)

/-- `a^n mod m`. -/
def powMod (a n m : Nat) : Nat := powModAux m (Nat.log2 n + 1) a n 1

theorem powModAux_eq (m : Nat) : ∀ (f a n acc : Nat), n < 2 ^ f → powModAux m f a n acc = acc * a ^ n % m := by
  intro f
  induction f with
  | zero => intro a n acc h; have : n = 0 := by simpa using h
            subst this; simp [powModAux]
  | succ f ih =>
    intro a n acc h
    unfold powModAux
    by_cases h0 : n = 0
    · subst h0; simp
    · rw [if_neg h0, ih _ _ _ (by rw [pow_succ] at h; omega)]
      have e : a ^ n = (a * a) ^ (n / 2) * a ^ (n % 2) := by
        rw [← pow_two, ← pow_mul, ← pow_add]; congr 1; omega
      rw [e]
      rcases Nat.mod_two_eq_zero_or_one n with h2 | h2
      · rw [h2]; simp [Nat.mul_mod, Nat.pow_mod]
      · rw [h2]; simp only [if_true, pow_one]
        rw [show acc * ((a * a) ^ (n / 2) * a) = (acc * a) * (a * a) ^ (n / 2) by ring]
        simp [Nat.mul_mod, Nat.pow_mod]

theorem powMod_eq (a n m : Nat) : powMod a n m = a ^ n % m := by
  unfold powMod
  rw [powModAux_eq m _ a n 1 (Nat.lt_log2_self), one_mul]

/-- All listed factors are prime. -/
def AllPrime : List (Nat × Nat) → Prop
  | [] => True
  | (q, _) :: t => Nat.Prime q ∧ AllPrime t

/-- The computable part of a Pratt certificate. -/
def prattCheck (p a : Nat) (fs : List (Nat × Nat)) : Bool :=
  decide (1 < p) && decide ((fs.map fun f => f.1 ^ f.2).prod = p - 1) && decide (powMod a (p - 1) p = 1) &&
    fs.all fun f => decide (powMod a ((p - 1) / f.1) p ≠ 1)

theorem prime_dvd_prod {q : Nat} (hq : q.Prime) : ∀ fs : List (Nat × Nat), AllPrime fs →
    q ∣ (fs.map fun f => f.1 ^ f.2).prod → ∃ f ∈ fs, f.1 = q
  | [], _, h => by simp at h; exact absurd h hq.one_lt.ne'
  | (r, e) :: t, hp, h => by
    simp only [List.map_cons, List.prod_cons] at h
    rcases (Nat.Prime.dvd_mul hq).mp h with h | h
    · have := hq.dvd_of_dvd_pow h
      exact ⟨(r, e), by simp, ((Nat.prime_dvd_prime_iff_eq hq hp.1).mp this).symm⟩
    · obtain ⟨f, hf, rfl⟩ := prime_dvd_prod hq t hp.2 h
      exact ⟨f, by simp [hf], rfl⟩

theorem pratt (p a : Nat) (fs : List (Nat × Nat)) (h : prattCheck p a fs = true) (hp : AllPrime fs) : p.Prime := by
  simp only [prattCheck, Bool.and_eq_true, decide_eq_true_eq, List.all_eq_true] at h
  obtain ⟨⟨⟨h1, h2⟩, h3⟩, h4⟩ := h
  have cast : ∀ n : Nat, ((a : ZMod p) ^ n = 1) ↔ powMod a n p = 1 := by
    intro n
    rw [powMod_eq]
    have : ((a : ZMod p) ^ n = 1) ↔ ((a ^ n : Nat) : ZMod p) = ((1 : Nat) : ZMod p) := by push_cast; rfl
    rw [this, ZMod.natCast_eq_natCast_iff', Nat.mod_eq_of_lt h1]
  refine lucas_primality p (a : ZMod p) ((cast _).mpr h3) ?_
  intro q hq hd
  rw [← h2] at hd
  obtain ⟨f, hf, rfl⟩ := prime_dvd_prod hq fs hp hd
  rw [Ne, cast]
  exact h4 f hf

end Tss
