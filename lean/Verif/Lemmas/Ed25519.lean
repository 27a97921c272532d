import Verif.Model.Ed25519
import Verif.Lemmas.Edwards
import Verif.Lemmas.Primes25519
import Verif.Lemmas.EC
import Mathlib.FieldTheory.Finite.Basic
/-
edwards25519 as a group, and correctness of the extended-coordinate formulas.
-/
namespace Tss.Ed
open Tss Edw

theorem P_prime : Nat.Prime P := by
  have := Primes.prime_57896044618658097711785492504343953926634992332820282019728792003956564819949
  have h : P = 57896044618658097711785492504343953926634992332820282019728792003956564819949 := by decide +kernel
  rwa [h]

theorem ord_prime : Nat.Prime ord := by
  have := Primes.prime_7237005577332262213973186563042994240857116359379907606001950938285454250989
  have h : ord = 7237005577332262213973186563042994240857116359379907606001950938285454250989 := by decide +kernel
  rwa [h]

instance : Fact (Nat.Prime P) := ⟨P_prime⟩
instance : NeZero P := ⟨P_prime.ne_zero⟩

/-- The field. -/
abbrev F := ZMod P

/-- Curve constant in the field. -/
def d : F := (dN : F)

/-- 121666 * d = -121665. -/
theorem d_def : (121666 : F) * d = -121665 := by
  have h : ((121666 * dN + 121665 : Nat) : F) = 0 := by
    rw [ZMod.natCast_eq_zero_iff]; decide +kernel
  unfold d
  push_cast at h
  linear_combination h

theorem natCast_eq {a b : Nat} : ((a : F) = (b : F)) ↔ a % P = b % P := ZMod.natCast_eq_natCast_iff' a b P

theorem powMod_cast (a n : Nat) : ((powMod a n P : Nat) : F) = (a : F) ^ n := by
  rw [powMod_eq, ZMod.natCast_mod]; push_cast; rfl

theorem complete : Complete d where
  two := by
    have : ((2 : Nat) : F) ≠ ((0 : Nat) : F) := by rw [Ne, natCast_eq]; decide +kernel
    exact_mod_cast this
  sq := by
    refine ⟨((powMod 2 ((P - 1) / 4) P : Nat) : F), ?_⟩
    have h : (((powMod 2 ((P - 1) / 4) P) ^ 2 + 1 : Nat) : F) = 0 := by
      rw [ZMod.natCast_eq_zero_iff]; decide +kernel
    push_cast at h
    linear_combination h
  nsq := by
    intro r hr
    have h1 : (d : F) ^ ((P - 1) / 2) = r ^ (P - 1) := by
      rw [← hr, ← pow_mul]; congr 1
    have h2 : (d : F) ^ ((P - 1) / 2) ≠ 1 := by
      unfold d
      rw [← powMod_cast, Ne, show (1 : F) = ((1 : Nat) : F) by simp, natCast_eq]
      decide +kernel
    have hr0 : r ≠ 0 := by
      rintro rfl
      have : (dN : F) = ((0 : Nat) : F) := by rw [show (dN : F) = d from rfl, ← hr]; simp
      rw [natCast_eq] at this
      revert this; decide +kernel
    exact h2 (h1.trans (ZMod.pow_card_sub_one_eq_one hr0))

instance : Fact (Complete d) := ⟨complete⟩

/-- The group of points of edwards25519. -/
abbrev Point := Pt d

/-! ### Field operations -/

@[simp] theorem cast_feAdd (a b : Nat) : ((feAdd a b : Nat) : F) = a + b := by
  unfold feAdd; rw [ZMod.natCast_mod]; push_cast; rfl

@[simp] theorem cast_feMul (a b : Nat) : ((feMul a b : Nat) : F) = a * b := by
  unfold feMul; rw [ZMod.natCast_mod]; push_cast; rfl

@[simp] theorem cast_feSub (a b : Nat) : ((feSub a b : Nat) : F) = a - b := by
  unfold feSub; rw [ZMod.natCast_mod]
  have h : b % P ≤ P := (Nat.mod_lt b P_prime.pos).le
  rw [Nat.cast_add, Nat.cast_sub h, ZMod.natCast_mod]
  simp; ring

theorem fePowAux_eq : ∀ (f a n acc : Nat), fePowAux f a n acc = powModAux P f a n acc
  | 0, _, _, _ => rfl
  | f + 1, a, n, acc => by
    unfold fePowAux powModAux
    split
    · rfl
    · exact fePowAux_eq f _ _ _

theorem P_lt : P < 2 ^ 255 := by decide +kernel

@[simp] theorem cast_feInvert (a : Nat) : ((feInvert a : Nat) : F) = (a : F)⁻¹ := by
  unfold feInvert
  rw [fePowAux_eq, powModAux_eq P _ _ _ _ (by decide +kernel), one_mul, ZMod.natCast_mod]
  push_cast
  by_cases h : (a : F) = 0
  · rw [h, inv_zero, zero_pow]; decide +kernel
  · have := ZMod.pow_card_sub_one_eq_one h
    rw [show P - 1 = (P - 2) + 1 by decide +kernel, pow_succ] at this
    exact eq_inv_of_mul_eq_one_left this

theorem feMul_lt (a b : Nat) : feMul a b < P := Nat.mod_lt _ P_prime.pos

theorem feMul_val (a b : Nat) : feMul a b = ((a : F) * (b : F)).val := by
  rw [← cast_feMul, ZMod.val_natCast, Nat.mod_eq_of_lt (feMul_lt a b)]

/-! ### Extended coordinates -/

/-- The extended element represents the point. -/
structure Rep (e : Ext) (g : Point) : Prop where
  z : (e.Z : F) ≠ 0
  x : (e.X : F) = g.x * e.Z
  y : (e.Y : F) = g.y * e.Z
  t : (e.T : F) = g.x * g.y * e.Z

theorem rep_zero : Rep Ext.zero 0 where
  z := by simp [Ext.zero]
  x := by simp [Ext.zero]
  y := by simp [Ext.zero]
  t := by simp [Ext.zero]

theorem rep_add {e f : Ext} {g h : Point} (he : Rep e g) (hf : Rep f h) : Rep (e.add f) (g + h) := by
  obtain ⟨z1, hx1, hy1, ht1⟩ := he
  obtain ⟨z2, hx2, hy2, ht2⟩ := hf
  have b := den_add complete g.on h.on
  have c := den_sub complete g.on h.on
  have two := complete.two
  have hd : ((dN : Nat) : F) = d := rfl
  have eX : ((e.add f).X : F) = (2 * (g.x * h.y + g.y * h.x) * (e.Z * f.Z)) * (2 * (1 - d * g.x * h.x * g.y * h.y) * (e.Z * f.Z)) := by
    simp only [Ext.add, cast_feAdd, cast_feMul, cast_feSub, hx1, hy1, ht1, hx2, hy2, ht2, hd]; ring
  have eY : ((e.add f).Y : F) = (2 * (g.y * h.y + g.x * h.x) * (e.Z * f.Z)) * (2 * (1 + d * g.x * h.x * g.y * h.y) * (e.Z * f.Z)) := by
    simp only [Ext.add, cast_feAdd, cast_feMul, cast_feSub, hx1, hy1, ht1, hx2, hy2, ht2, hd]; ring
  have eZ : ((e.add f).Z : F) = (2 * (1 + d * g.x * h.x * g.y * h.y) * (e.Z * f.Z)) * (2 * (1 - d * g.x * h.x * g.y * h.y) * (e.Z * f.Z)) := by
    simp only [Ext.add, cast_feAdd, cast_feMul, cast_feSub, ht1, ht2, hd]; ring
  have eT : ((e.add f).T : F) = (2 * (g.x * h.y + g.y * h.x) * (e.Z * f.Z)) * (2 * (g.y * h.y + g.x * h.x) * (e.Z * f.Z)) := by
    simp only [Ext.add, cast_feAdd, cast_feMul, cast_feSub, hx1, hy1, hx2, hy2]; ring
  have ex : (g + h).x = (g.x * h.y + g.y * h.x) / (1 + d * g.x * h.x * g.y * h.y) := rfl
  have ey : (g + h).y = (g.y * h.y + g.x * h.x) / (1 - d * g.x * h.x * g.y * h.y) := rfl
  generalize 1 + d * g.x * h.x * g.y * h.y = B1 at *
  generalize 1 - d * g.x * h.x * g.y * h.y = C1 at *
  refine ⟨?_, ?_, ?_, ?_⟩
  · rw [eZ]
    exact mul_ne_zero (mul_ne_zero (mul_ne_zero two b) (mul_ne_zero z1 z2)) (mul_ne_zero (mul_ne_zero two c) (mul_ne_zero z1 z2))
  · rw [eX, eZ, ex]; field_simp
  · rw [eY, eZ, ey]; field_simp
  · rw [eT, eZ, ex, ey]; field_simp

theorem rep_smulAux : ∀ (f n : Nat) (q acc : Ext) (g h : Point), n < 2 ^ f → Rep q g → Rep acc h →
    Rep (Ext.smulAux f n q acc) (h + n • g)
  | 0, n, q, acc, g, h, hn, hq, ha => by
    have : n = 0 := by simpa using hn
    subst this
    simpa [Ext.smulAux] using ha
  | f + 1, n, q, acc, g, h, hn, hq, ha => by
    unfold Ext.smulAux
    by_cases h0 : n = 0
    · subst h0; simpa using ha
    · rw [if_neg h0]
      have hlt : n / 2 < 2 ^ f := by rw [pow_succ] at hn; omega
      have e : n • g = (n % 2) • g + (n / 2) • (g + g) := by
        rw [← two_nsmul, ← mul_nsmul', ← add_nsmul]; congr 1; omega
      rw [e, ← add_assoc]
      apply rep_smulAux f (n / 2) _ _ _ _ hlt (rep_add hq hq)
      rcases Nat.mod_two_eq_zero_or_one n with h2 | h2
      · rw [h2]; simpa using ha
      · rw [h2]; simpa using rep_add ha hq

theorem rep_smul {q : Ext} {g : Point} (n : Nat) (h : Rep q g) : Rep (Ext.smul n q) (n • g) := by
  have := rep_smulAux (n.log2 + 1) n q Ext.zero g 0 Nat.lt_log2_self h rep_zero
  simpa [Ext.smul] using this

/-- The base point. -/
def B : Point where
  x := (Bx : F)
  y := (By : F)
  on := by
    unfold OnC
    have h : ((By ^ 2 : Nat) : F) = ((1 + dN * Bx ^ 2 * By ^ 2 + Bx ^ 2 : Nat) : F) := by
      rw [natCast_eq]; decide +kernel
    push_cast at h
    have hd : ((dN : Nat) : F) = d := rfl
    rw [hd] at h
    linear_combination h

theorem rep_base : Rep Ext.base B where
  z := by simp [Ext.base]
  x := by simp [Ext.base, B]
  y := by simp [Ext.base, B]
  t := by simp [Ext.base, B]

theorem rep_eq_zero {e : Ext} {g : Point} (h : Rep e g) : g = 0 ↔ (e.X % P = 0 ∧ e.Y % P = e.Z % P) := by
  have e1 : (e.X % P = 0) ↔ g.x = 0 := by
    have : (e.X % P = 0) ↔ (e.X : F) = 0 := by
      rw [show (0 : F) = ((0 : Nat) : F) by simp, natCast_eq, Nat.zero_mod]
    rw [this, h.x, mul_eq_zero]; simp [h.z]
  have e2 : (e.Y % P = e.Z % P) ↔ g.y = 1 := by
    rw [← natCast_eq, h.y]
    constructor
    · intro hh
      have : (g.y - 1) * e.Z = 0 := by linear_combination hh
      rcases mul_eq_zero.mp this with h' | h'
      · linear_combination h'
      · exact absurd h' h.z
    · intro hh; rw [hh, one_mul]
  rw [e1, e2]
  constructor
  · rintro rfl; simp
  · rintro ⟨hx, hy⟩; ext
    · simpa using hx
    · simpa using hy

theorem ord_smul_B : ord • B = 0 := by
  rw [rep_eq_zero (rep_smul ord rep_base)]
  decide +kernel

theorem B_ne_zero : B ≠ 0 := by
  rw [Ne, rep_eq_zero rep_base]; decide +kernel

end Tss.Ed
