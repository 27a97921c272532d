import Verif.Props.AlicePaillier
import Verif.Lemmas.PowMod
/-! C34: key generation succeeds on a concrete pair of 1024-bit primes (a case for the hypotheses of C34_generated). -/
namespace Tss.AlicePaillier
open Tss Alice

def bigP : Nat := 3931 * 2 ^ 1012 + 1
def bigQ : Nat := 15607 * 2 ^ 1010 + 1

theorem bigP_prime : bigP.Prime :=
  pratt bigP 3 [(2, 1012), (3931, 1)] (by decide +kernel) ⟨by norm_num, by norm_num, trivial⟩

theorem bigQ_prime : bigQ.Prime :=
  pratt bigQ 3 [(2, 1010), (15607, 1)] (by decide +kernel) ⟨by norm_num, by norm_num, trivial⟩

theorem bigNew_ok : (Factor.New Factor.toyHash1 [(bigP : Int), (bigQ : Int)] ((bigP * bigQ : ℕ) : Int) (fun _ _ => [])
    (List.replicate 256 0)).isOk = true := by decide +kernel

/-- The generator delivering the two primes in turn. -/
def bigDraw (i : Nat) : Res AErr Int := .ok (if i % 2 = 0 then (bigP : Int) else (bigQ : Int))

/-- The hypotheses of C34_generated are met: the generator delivers primes and generation returns a key. -/
example : (∀ i p, bigDraw i = .ok p → ∃ q : Nat, q.Prime ∧ p = q) ∧
    ∃ k, NewPaillierUnSafe Factor.toyHash1 bigDraw (fun _ _ => []) (List.replicate 256 0) = .ok k := by
  constructor
  · intro i p h
    unfold bigDraw at h
    simp only [Res.ok.injEq] at h
    split at h
    · exact ⟨bigP, bigP_prime, h.symm⟩
    · exact ⟨bigQ, bigQ_prime, h.symm⟩
  · cases h : Factor.New Factor.toyHash1 [(bigP : Int), (bigQ : Int)] ((bigP * bigQ : ℕ) : Int) (fun _ _ => [])
        (List.replicate 256 0) with
    | ok r =>
      obtain ⟨msg, rest⟩ := r
      obtain ⟨k, hk, -, -⟩ := C34_generation_succeeds Factor.toyHash1 bigDraw (fun _ _ => []) (List.replicate 256 0) bigP bigQ
        rfl rfl bigP_prime bigQ_prime (by decide +kernel) (by decide +kernel) msg rest h
      exact ⟨k, hk⟩
    | err e => have := bigNew_ok; rw [h] at this; simp [Res.isOk] at this
    | panic => have := bigNew_ok; rw [h] at this; simp [Res.isOk] at this

end Tss.AlicePaillier
