import Verif.Lemmas.SecpRep
/-
C72: the word-level arithmetic of btcec's field values computes in Z/P.
-/
namespace Tss.Secp
open Tss

namespace spec

/-- A straight-line computation over the operations of field.go. -/
inductive Expr where
  /-- `SetByteSlice` of at most 32 bytes -/
  | bytes (b : Bytes)
  /-- `SetInt` -/
  | int (c : Nat)
  /-- `Normalize` -/
  | normalize (e : Expr)
  /-- `Negate m` -/
  | negate (m : Nat) (e : Expr)
  /-- `Add`, `Add2` -/
  | add (a b : Expr)
  /-- `AddInt` -/
  | addInt (e : Expr) (c : Nat)
  /-- `MulInt` -/
  | mulInt (e : Expr) (c : Nat)
  /-- `Mul`, `Mul2` -/
  | mul (a b : Expr)
  /-- `Square`, `SquareVal` -/
  | square (e : Expr)
  /-- `Inverse` -/
  | inverse (e : Expr)
  /-- `SqrtVal` -/
  | sqrt (e : Expr)

/-- What the library computes: words. -/
def Expr.run : Expr → FV
  | .bytes b => FV.setByteSlice b
  | .int c => FV.setInt c
  | .normalize e => e.run.normalize
  | .negate m e => e.run.negate (UInt32.ofNat m)
  | .add a b => a.run.add b.run
  | .addInt e c => e.run.addInt c
  | .mulInt e c => e.run.mulInt c
  | .mul a b => a.run.mul b.run
  | .square e => e.run.square
  | .inverse e => e.run.inverse
  | .sqrt e => e.run.sqrt

/-- What it should compute: residues modulo P = 2^256 - 2^32 - 977. -/
noncomputable def Expr.eval : Expr → ZMod (2 ^ 256 - 2 ^ 32 - 977)
  | .bytes b => (beNat b : ℕ)
  | .int c => (c : ℕ)
  | .normalize e => e.eval
  | .negate _ e => -e.eval
  | .add a b => a.eval + b.eval
  | .addInt e c => e.eval + (c : ℕ)
  | .mulInt e c => e.eval * (c : ℕ)
  | .mul a b => a.eval * b.eval
  | .square e => e.eval ^ 2
  | .inverse e => e.eval⁻¹
  | .sqrt e => e.eval ^ ((2 ^ 256 - 2 ^ 32 - 977 + 1) / 4)

/-- The documented preconditions of the operations (field.go: comments of the methods): e may be computed with the rules, and its
result has magnitude at most m. -/
inductive Expr.Allowed : Expr → Nat → Prop
  | bytes {b} : b.length ≤ 32 → Allowed (.bytes b) 1
  | int {c} : c < 2 ^ 26 → Allowed (.int c) 1
  | normalize {e m} : Allowed e m → m ≤ 62 → Allowed (.normalize e) 1
  | negate {e m k} : Allowed e m → m ≤ k → k ≤ 61 → Allowed (.negate k e) (k + 1)
  | add {a b m n} : Allowed a m → Allowed b n → m + n ≤ 63 → Allowed (.add a b) (m + n)
  | addInt {e m c} : Allowed e m → c ≤ 1000 → m ≤ 62 → Allowed (.addInt e c) (m + 1)
  | mulInt {e m c} : Allowed e m → c ≤ 63 → m * c ≤ 63 → Allowed (.mulInt e c) (m * c)
  | mul {a b m n} : Allowed a m → Allowed b n → m ≤ 8 → n ≤ 8 → Allowed (.mul a b) 1
  | square {e m} : Allowed e m → m ≤ 8 → Allowed (.square e) 1
  | inverse {e m} : Allowed e m → m ≤ 8 → Allowed (.inverse e) 1
  | sqrt {e m} : Allowed e m → m ≤ 8 → Allowed (.sqrt e) 1

end spec

open spec

theorem run_rp {e : Expr} {m : Nat} (h : e.Allowed m) : e.run.Rp m (e.eval : ZMod p) := by
  induction h with
  | bytes h => exact FV.Rp.setByteSlice h
  | int h => exact FV.Rp.setInt _ h
  | normalize _ hm ih => exact (ih.norm hm).1
  | @negate e m k _ hm hk ih =>
    have e : (UInt32.ofNat k).toNat = k := by rw [UInt32.toNat_ofNat']; exact Nat.mod_eq_of_lt (by omega)
    have := ih.neg (UInt32.ofNat k) (by omega) (by omega)
    rw [e] at this
    exact this
  | add _ _ h ih1 ih2 => exact ih1.add ih2 h
  | addInt _ hc hm ih => exact ih.addInt _ hc hm
  | mulInt _ hc hm ih => exact ih.mulInt _ hc hm
  | mul _ _ h1 h2 ih1 ih2 => exact ih1.mul ih2 h1 h2
  | square _ h ih => exact ih.square h
  | inverse _ h ih => exact ih.inverse h
  | sqrt _ h ih => exact ih.sqrt h

/-- C72: whatever is computed with the field operations within their documented preconditions, `Normalize` followed by `Bytes`
yields the 32-byte big-endian encoding of the residue, reduced below P. -/
theorem C72_field_arithmetic (e : Expr) (m : Nat) (h : e.Allowed m) (hm : m ≤ 62) :
    e.run.normalize.bytes = beFixed 32 e.eval.val := by
  obtain ⟨h1, h2⟩ := (run_rp h).norm hm
  have := beFixed_beNat e.run.normalize.bytes
  rw [bytes_length, h2.bytes h1] at this
  exact this.symm

/-- C72: after `Normalize`, `Equals`, `IsZero` and `IsOdd` decide equality, zero and parity of the reduced residues. -/
theorem C72_comparisons (e f : Expr) (m n : Nat) (he : e.Allowed m) (hf : f.Allowed n) (hm : m ≤ 62) (hn : n ≤ 62) :
    (e.run.normalize.equals f.run.normalize = true ↔ e.eval = f.eval) ∧
    (e.run.normalize.isZero = true ↔ e.eval = 0) ∧
    (e.run.normalize.isOdd = true ↔ e.eval.val % 2 = 1) := by
  obtain ⟨h1, h2⟩ := (run_rp he).norm hm
  obtain ⟨g1, g2⟩ := (run_rp hf).norm hn
  exact ⟨h2.equals g2 h1 g1, h2.isZero h1, h2.isOdd h1⟩

theorem sqrt_sq {v : ZMod p} (r : ZMod p) (hr : r ^ 2 = v) : (v ^ ((p + 1) / 4)) ^ 2 = v := by
  subst hr
  by_cases h0 : r = 0
  · rw [h0, zero_pow (by decide), zero_pow (by decide +kernel), zero_pow (by decide)]
  · rw [← pow_mul, ← pow_mul]
    have e1 : 2 * ((p + 1) / 4 * 2) = (p - 1) + 2 := by decide +kernel
    have hf : r ^ (p - 1) = 1 := ZMod.pow_card_sub_one_eq_one h0
    rw [e1, pow_add, hf, one_mul]

/-- C72: `SqrtVal` of a square is one of its square roots (the residue of a non-square is not a root). -/
theorem C72_sqrt (e : Expr) (m : Nat) (h : e.Allowed m) (hm : m ≤ 8) :
    (Expr.sqrt e).Allowed 1 ∧ ((Expr.sqrt e).eval ^ 2 = e.eval ↔ ∃ r, r ^ 2 = e.eval) := by
  refine ⟨Expr.Allowed.sqrt h hm, ⟨fun h => ⟨_, h⟩, ?_⟩⟩
  rintro ⟨r, hr⟩
  exact sqrt_sq (v := e.eval) r hr

/-- C72, a case: the right-hand side of the curve equation, and its root, are allowed computations. -/
theorem C72_example (b : Bytes) (h : b.length ≤ 32) :
    (Expr.sqrt (.normalize (.addInt (.mul (.square (.bytes b)) (.bytes b)) 7))).Allowed 1 :=
  .sqrt (.normalize (.addInt (.mul (.square (.bytes h) (by decide)) (.bytes h) (by decide) (by decide)) (by decide) (by decide)) (by decide))
    (by decide)

/-- C72, the magnitude bound matters: `Negate` with a magnitude below that of its argument is wrong. -/
theorem C72_negate_needs_magnitude :
    (FV.negate (FV.mulInt (FV.setByteSlice (List.replicate 32 0xff)) 4) 1).normalize.bytes ≠
      beFixed 32 ((Expr.negate 1 (.mulInt (.bytes (List.replicate 32 0xff)) 4)).eval).val := by
  intro h
  have := congrArg beNat h
  rw [beNat_beFixed] at this
  have e : (Expr.negate 1 (.mulInt (.bytes (List.replicate 32 0xff)) 4)).eval = (Expr.negate 4 (.mulInt (.bytes (List.replicate 32 0xff)) 4)).eval := rfl
  rw [e] at this
  have ha : (Expr.negate 4 (.mulInt (.bytes (List.replicate 32 0xff)) 4)).Allowed 5 :=
    .negate (.mulInt (.bytes (by decide)) (by decide) (by decide)) (by decide) (by decide)
  have h2 := congrArg beNat (C72_field_arithmetic _ _ ha (by decide))
  rw [beNat_beFixed] at h2
  rw [← h2] at this
  revert this
  decide +kernel

end Tss.Secp
