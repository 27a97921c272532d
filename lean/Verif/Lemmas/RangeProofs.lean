import Verif.Model.RangeProofs
import Verif.Lemmas.ModExp
import Verif.Lemmas.AliceUtils
import Verif.Lemmas.Text
import Verif.Lemmas.EC
/-
Helper lemmas for the range proofs: when each checked step succeeds, in terms of `ZMod`.
-/
namespace Tss

theorem Res.bind_ok_iff {ε α β : Type} (r : Res ε α) (f : α → Res ε β) (b : β) :
    (r >>= f) = .ok b ↔ ∃ a, r = .ok a ∧ f a = .ok b := by
  cases r with
  | ok a =>
    constructor
    · intro h; exact ⟨a, rfl, h⟩
    · rintro ⟨a', h, h'⟩; cases h; exact h'
  | err e => exact ⟨fun h => (nomatch h), fun ⟨_, h, _⟩ => nomatch h⟩
  | panic => exact ⟨fun h => (nomatch h), fun ⟨_, h, _⟩ => nomatch h⟩

theorem Res.bind_panic_iff {ε α β : Type} (r : Res ε α) (f : α → Res ε β) :
    (r >>= f) = .panic ↔ r = .panic ∨ ∃ a, r = .ok a ∧ f a = .panic := by
  cases r with
  | ok a =>
    constructor
    · intro h; exact .inr ⟨a, rfl, h⟩
    · rintro (h | ⟨a', h, h'⟩)
      · cases h
      · cases h; exact h'
  | err e => exact ⟨fun h => (nomatch h), fun h => by rcases h with h | ⟨_, h, _⟩ <;> cases h⟩
  | panic => exact ⟨fun _ => .inl rfl, fun _ => rfl⟩

theorem Res.bind_err_iff {ε α β : Type} (r : Res ε α) (f : α → Res ε β) (e : ε) :
    (r >>= f) = .err e ↔ r = .err e ∨ ∃ a, r = .ok a ∧ f a = .err e := by
  cases r with
  | ok a =>
    constructor
    · intro h; exact .inr ⟨a, rfl, h⟩
    · rintro (h | ⟨a', h, h'⟩)
      · cases h
      · cases h; exact h'
  | err e' =>
    constructor
    · intro h; cases h; exact .inl rfl
    · rintro (h | ⟨_, h, _⟩)
      · cases h; rfl
      · cases h
  | panic => exact ⟨fun h => (nomatch h), fun h => by rcases h with h | ⟨_, h, _⟩ <;> cases h⟩

theorem Res.ok_bind {ε α β : Type} (a : α) (f : α → Res ε β) : ((.ok a : Res ε α) >>= f) = f a := rfl

theorem Res.orErr_ok {ε α : Type} {o : Option α} {e : ε} {a : α} : Res.orErr o e = .ok a ↔ o = some a := by
  cases o <;> simp [Res.orErr]

namespace RangeProofs
open Tss Text Alice

theorem lift_ok {r : Res AErr Unit} : lift r = .ok () ↔ r = .ok () := by
  cases r <;> simp [lift]

theorem check_ok {b : Bool} {e : VErr} : check b e = .ok () ↔ b = true := by
  cases b <;> simp [check]

theorem deref_ok {o : Option Int} {z : Int} : deref o = .ok z ↔ o = some z := by
  cases o <;> simp [deref]

theorem derefP_ok {o : Option ECPoint} {z : ECPoint} : derefP o = .ok z ↔ o = some z := by
  cases o <;> simp [derefP]

theorem unit_ex {p : Unit → Prop} : (∃ a, p a) ↔ p () := ⟨fun ⟨_, h⟩ => h, fun h => ⟨(), h⟩⟩

theorem parseBig_bigString (z : Int) : parseBig 10 (bigString z) = some z := by
  unfold bigString
  split
  · next h =>
    have := parseNat_itoa z.natAbs
    unfold parseBig
    simp only [this]
    rw [if_neg (by decide), if_pos trivial]
    simp only [Option.map_some, Option.some.injEq]
    omega
  · next h =>
    rw [parseBig_itoa]
    congr 1
    omega

theorem commit_some {N : ℕ} [NeZero N] (s t a b r : Int) :
    commit ((N : Int), s, t) a b = some r ↔
      (0 ≤ a ∨ Int.gcd s N = 1) ∧ (0 ≤ b ∨ Int.gcd t N = 1) ∧ 0 ≤ r ∧ r < N ∧
        (r : ZMod N) = pw (s : ZMod N) a * pw (t : ZMod N) b := by
  have hn : (N : ℤ) ≠ 0 := by exact_mod_cast NeZero.ne N
  unfold commit
  simp only
  cases h1 : bigExp s a N with
  | none =>
    rw [bigExp_none] at h1
    simp only [reduceCtorEq, false_iff]
    rintro ⟨h, -⟩; omega
  | some x =>
    cases h2 : bigExp t b N with
    | none =>
      rw [bigExp_none] at h2
      simp only [reduceCtorEq, false_iff]
      rintro ⟨-, h, -⟩; omega
    | some y =>
      rw [bigExp_some] at h1 h2
      simp only [Option.some.injEq]
      obtain ⟨d1, -, -, e1⟩ := h1
      obtain ⟨d2, -, -, e2⟩ := h2
      have h0 := Int.emod_nonneg (x * y) hn
      have h3 := Int.emod_lt_of_pos (x * y) (by omega : 0 < (N : ℤ))
      have ec : ((x * y % (N : ℤ) : ℤ) : ZMod N) = pw (s : ZMod N) a * pw (t : ZMod N) b := by
        rw [intCast_emod]; push_cast; rw [e1, e2]
      constructor
      · rintro rfl; exact ⟨d1, d2, h0, h3, ec⟩
      · rintro ⟨-, -, hr, hr', he⟩
        rw [residue_eq h0 h3 hr hr', ec, he]

theorem enc0_some {n : ℕ} [NeZero n] (a z r : Int) :
    enc0 (n : Int) a z = some r ↔
      0 ≤ r ∧ r < (n * n : ℕ) ∧ (r : ZMod (n * n)) = pw (1 + (n : ZMod (n * n))) a * (z : ZMod (n * n)) ^ n := by
  have : NeZero (n * n) := ⟨Nat.mul_ne_zero (NeZero.ne n) (NeZero.ne n)⟩
  have hn : ((n * n : ℕ) : ℤ) ≠ 0 := by exact_mod_cast NeZero.ne (n * n)
  unfold enc0
  rw [show (n : ℤ) * (n : ℤ) = ((n * n : ℕ) : ℤ) by push_cast; rfl]
  have k1 := gcd_one_add n
  cases h1 : bigExp (1 + (n : Int)) a ((n * n : ℕ) : ℤ) with
  | none =>
    rw [bigExp_none] at h1
    exact absurd k1 h1.2
  | some x =>
    cases h2 : bigExp z n ((n * n : ℕ) : ℤ) with
    | none => rw [bigExp_none] at h2; omega
    | some y =>
      rw [bigExp_some] at h1 h2
      simp only [Option.some.injEq]
      obtain ⟨-, -, -, e1⟩ := h1
      obtain ⟨-, -, -, e2⟩ := h2
      have h0 := Int.emod_nonneg (x * y) hn
      have h3 := Int.emod_lt_of_pos (x * y) (by omega : 0 < ((n * n : ℕ) : ℤ))
      have ec : ((x * y % ((n * n : ℕ) : ℤ) : ℤ) : ZMod (n * n)) =
          pw (1 + (n : ZMod (n * n))) a * (z : ZMod (n * n)) ^ n := by
        rw [intCast_emod]
        rw [Int.cast_mul, e1, e2, pw_natCast]
        push_cast
        rfl
      constructor
      · rintro rfl; exact ⟨h0, h3, ec⟩
      · rintro ⟨hr, hr', he⟩
        rw [residue_eq h0 h3 hr hr', ec, he]

theorem mulExp_some {m : ℕ} [NeZero m] (A K e r : Int) :
    mulExp A K e (m : Int) = some r ↔
      (0 ≤ e ∨ Int.gcd K m = 1) ∧ 0 ≤ r ∧ r < m ∧ (r : ZMod m) = A * pw (K : ZMod m) e := by
  have hn : (m : ℤ) ≠ 0 := by exact_mod_cast NeZero.ne m
  unfold mulExp
  cases h1 : bigExp K e m with
  | none =>
    rw [bigExp_none] at h1
    simp only [reduceCtorEq, false_iff]
    rintro ⟨h, -⟩; omega
  | some x =>
    rw [bigExp_some] at h1
    simp only [Option.some.injEq]
    obtain ⟨d1, -, -, e1⟩ := h1
    have h0 := Int.emod_nonneg (A * x) hn
    have h3 := Int.emod_lt_of_pos (A * x) (by omega : 0 < (m : ℤ))
    have ec : ((A * x % (m : ℤ) : ℤ) : ZMod m) = A * pw (K : ZMod m) e := by
      rw [intCast_emod]; push_cast; rw [e1]
    constructor
    · rintro rfl; exact ⟨d1, h0, h3, ec⟩
    · rintro ⟨-, hr, hr', he⟩
      rw [residue_eq h0 h3 hr hr', ec, he]

/-- Existence of a residue: a defined operation returns one. -/
theorem exists_residue {m : ℕ} [NeZero m] (x : ZMod m) : ∃ r : Int, 0 ≤ r ∧ r < m ∧ (r : ZMod m) = x :=
  ⟨(x.val : Int), by positivity, by exact_mod_cast ZMod.val_lt x, by simp⟩

theorem GetE_spec {Hb : Bytes → Bytes} {q : Int} {msgs : List Bytes} {salts : Nat → Bytes} {e : Int} {salt : Bytes}
    (h : GetE Hb q msgs salts = .ok (e, salt)) : e = challenge Hb q salt msgs ∧ -q ≤ e ∧ e ≤ q :=
  let h := getELoop_spec 100 e salt h
  ⟨h.1, h.2.1, h.2.2.1⟩

end RangeProofs
end Tss
