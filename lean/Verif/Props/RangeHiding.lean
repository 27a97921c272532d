import Verif.Props.RangeSound
import Mathlib.Data.Finset.Prod
import Mathlib.Data.Int.Interval
import Mathlib.GroupTheory.OrderOfElement
import Mathlib.Data.ZMod.Units
import Mathlib.Algebra.Order.Field.Basic
/-
C107: the messages of the range proofs hide the plaintext: for each challenge their distribution over the prover's draws is within a
negligible distance of one that anybody can produce without the secrets.
-/
namespace Tss.RangeProofs
open Tss Text Alice

namespace spec

/-- What the verifier sees of an encryption-range or log* proof (Y is the extra point of the latter). -/
structure View (n N : ℕ) (Gp : Type) where
  S : ZMod N
  A : ZMod (n * n)
  C : ZMod N
  Y : Gp
  z1 : ℤ
  z2 : ZMod n
  z3 : ℤ

/-- A prover's draws α, μ, r, γ; or those of somebody who makes up z1, S, z2, z3. -/
abbrev Draw (n : ℕ) := ℤ × ℤ × (ZMod n)ˣ × ℤ

/-- What the honest prover with secrets k, ρ sends under challenge e. -/
def real {n N : ℕ} {Gp : Type} [AddCommGroup Gp] (s t : (ZMod N)ˣ) (rho : (ZMod n)ˣ) (G : Gp) (k e : ℤ) (d : Draw n) : View n N Gp where
  S := ((s ^ k * t ^ d.2.1 : (ZMod N)ˣ) : ZMod N)
  A := pw (1 + (n : ZMod (n * n))) d.1 * ((d.2.2.1 : ZMod n).val : ZMod (n * n)) ^ n
  C := (s ^ d.1 * t ^ d.2.2.2 : (ZMod N)ˣ)
  Y := d.1 • G
  z1 := e * k + d.1
  z2 := (d.2.2.1 * rho ^ e : (ZMod n)ˣ)
  z3 := e * d.2.1 + d.2.2.2

/-- What somebody sends who knows the public values only: the responses are drawn and the first message computed from them. -/
def simulated {n N : ℕ} {Gp : Type} [AddCommGroup Gp] (s t : (ZMod N)ˣ) (K : (ZMod (n * n))ˣ) (X G : Gp) (e : ℤ) (d : Draw n) : View n N Gp where
  S := (t ^ d.2.1 : (ZMod N)ˣ)
  A := pw (1 + (n : ZMod (n * n))) d.1 * ((d.2.2.1 : ZMod n).val : ZMod (n * n)) ^ n * ((K ^ (-e) : (ZMod (n * n))ˣ) : ZMod (n * n))
  C := (s ^ d.1 * t ^ d.2.2.2 * (t ^ d.2.1) ^ (-e) : (ZMod N)ˣ)
  Y := d.1 • G - e • X
  z1 := d.1
  z2 := (d.2.2.1 : (ZMod n)ˣ)
  z3 := d.2.2.2

/-- The draws of the code: RandomAbsoluteRangeInt(a), (b), RandomCoprimeInt(n), RandomAbsoluteRangeInt(c). -/
noncomputable def box (n a b c : ℕ) [NeZero n] : Finset (Draw n) :=
  Finset.Icc (1 - (a : ℤ)) (a + 1) ×ˢ Finset.Icc (1 - (b : ℤ)) (b + 1) ×ˢ (Finset.univ.erase (1 : (ZMod n)ˣ)) ×ˢ Finset.Icc (1 - (c : ℤ)) (c + 1)

/-- The parts of an encryption-range message, as the verifier reads them (no extra point). -/
def encView (n N : ℕ) (m : EncMsg) : Option (View n N PUnit) :=
  match parseBig 10 m.z1, parseBig 10 m.z3 with
  | some z1, some z3 => some ⟨(beNat m.S : ℕ), (beNat m.A : ℕ), (beNat m.C : ℕ), 0, z1, (beNat m.z2 : ℕ), z3⟩
  | _, _ => none

/-- The parts of a log* message, as the verifier reads them. -/
def logView (n N : ℕ) {Gp : Type} (val : ECPoint → Gp) (m : LogMsg) : Option (View n N Gp) :=
  match parseBig 10 m.z1, parseBig 10 m.z3 with
  | some z1, some z3 =>
    some ⟨(beNat m.S : ℕ), (beNat m.A : ℕ), (beNat m.D : ℕ), val ⟨beNat m.Yx, beNat m.Yy⟩, z1, (beNat m.z2 : ℕ), z3⟩
  | _, _ => none

end spec
open spec

/-- Counting: if f is injective and real = sim ∘ f then the counts of an event differ by at most the number of draws that f moves out. -/
theorem count_close {D V : Type} [DecidableEq D] (B : Finset D) (f : D → D) (hf : Function.Injective f) (re si : D → V)
    (h : ∀ d ∈ B, re d = si (f d)) (T : Set V) [DecidablePred (· ∈ T)] :
    (B.filter (re · ∈ T)).card ≤ (B.filter (si · ∈ T)).card + (B.filter (f · ∉ B)).card ∧
    (B.filter (si · ∈ T)).card ≤ (B.filter (re · ∈ T)).card + (B.filter (f · ∉ B)).card := by
  constructor
  · have h1 : B.filter (re · ∈ T) ⊆ (B.filter fun d => f d ∈ B ∧ si (f d) ∈ T) ∪ B.filter (f · ∉ B) := by
      intro d hd
      rw [Finset.mem_filter] at hd
      rw [Finset.mem_union, Finset.mem_filter, Finset.mem_filter]
      by_cases hb : f d ∈ B
      · left; exact ⟨hd.1, hb, h d hd.1 ▸ hd.2⟩
      · right; exact ⟨hd.1, hb⟩
    have h2 : (B.filter fun d => f d ∈ B ∧ si (f d) ∈ T).card ≤ (B.filter (si · ∈ T)).card := by
      refine Finset.card_le_card_of_injOn f (fun d hd => ?_) (fun a _ b _ hab => hf hab)
      rw [Finset.mem_coe, Finset.mem_filter] at hd
      rw [Finset.mem_coe, Finset.mem_filter]
      exact hd.2
    exact (Finset.card_le_card h1).trans ((Finset.card_union_le _ _).trans (Nat.add_le_add_right h2 _))
  · have himg : ((B.filter (f · ∈ B)).image f).card = (B.filter (f · ∈ B)).card := Finset.card_image_of_injective _ hf
    have hsub : (B.filter (f · ∈ B)).image f ⊆ B := by
      intro x hx
      rw [Finset.mem_image] at hx
      obtain ⟨d, hd, rfl⟩ := hx
      exact (Finset.mem_filter.mp hd).2
    have hmiss : (B \ (B.filter (f · ∈ B)).image f).card = (B.filter (f · ∉ B)).card := by
      rw [Finset.card_sdiff_of_subset hsub, himg]
      have := Finset.card_filter_add_card_filter_not (s := B) (fun d => f d ∈ B)
      omega
    have h1 : B.filter (si · ∈ T) ⊆ ((B.filter (re · ∈ T)).image f) ∪ (B \ (B.filter (f · ∈ B)).image f) := by
      intro x hx
      rw [Finset.mem_filter] at hx
      rw [Finset.mem_union, Finset.mem_sdiff]
      by_cases hi : x ∈ (B.filter (f · ∈ B)).image f
      · left
        rw [Finset.mem_image] at hi ⊢
        obtain ⟨d, hd, rfl⟩ := hi
        rw [Finset.mem_filter] at hd
        exact ⟨d, Finset.mem_filter.mpr ⟨hd.1, by rw [h d hd.1]; exact hx.2⟩, rfl⟩
      · right; exact ⟨hx.1, hi⟩
    refine (Finset.card_le_card h1).trans ((Finset.card_union_le _ _).trans ?_)
    rw [hmiss]
    exact Nat.add_le_add_right Finset.card_image_le _

/-- The change of variables: responses from draws. -/
def shift {n : ℕ} (rho : (ZMod n)ˣ) (ek c e : ℤ) (d : Draw n) : Draw n := (d.1 + ek, d.2.1 + c, d.2.2.1 * rho ^ e, d.2.2.2 + e * d.2.1)

theorem shift_inj {n : ℕ} (rho : (ZMod n)ˣ) (ek c e : ℤ) : Function.Injective (shift rho ek c e) := by
  rintro ⟨a, m, r, g⟩ ⟨a', m', r', g'⟩ h
  simp only [shift, Prod.mk.injEq, add_left_inj, mul_left_inj] at h
  obtain ⟨rfl, rfl, rfl, h4⟩ := h
  rw [add_left_inj] at h4
  subst h4; rfl

/-- Few integers of an interval are moved out of it. -/
theorem moved_out (a : ℕ) (c : ℤ) :
    ((Finset.Icc (1 - (a : ℤ)) (a + 1)).filter (fun x => x + c ∉ Finset.Icc (1 - (a : ℤ)) (a + 1))).card ≤ c.natAbs := by
  by_cases hc : 0 ≤ c
  · have : (Finset.Icc (1 - (a : ℤ)) (a + 1)).filter (fun x => x + c ∉ Finset.Icc (1 - (a : ℤ)) (a + 1)) ⊆ Finset.Icc ((a : ℤ) + 2 - c) (a + 1) := by
      intro x hx
      simp only [Finset.mem_filter, Finset.mem_Icc] at hx ⊢
      omega
    refine (Finset.card_le_card this).trans ?_
    rw [Int.card_Icc]; omega
  · have : (Finset.Icc (1 - (a : ℤ)) (a + 1)).filter (fun x => x + c ∉ Finset.Icc (1 - (a : ℤ)) (a + 1)) ⊆ Finset.Icc (1 - (a : ℤ)) (-(a : ℤ) - c) := by
      intro x hx
      simp only [Finset.mem_filter, Finset.mem_Icc] at hx ⊢
      omega
    refine (Finset.card_le_card this).trans ?_
    rw [Int.card_Icc]; omega

/-- Few draws are moved out of the box. -/
theorem box_moved {n a b c : ℕ} [NeZero n] (rho : (ZMod n)ˣ) (ek m e : ℤ) :
    ((box n a b c).filter (shift rho ek m e · ∉ box n a b c)).card ≤
      ek.natAbs * ((2 * b + 1) * ((Fintype.card (ZMod n)ˣ - 1) * (2 * c + 1))) +
      (2 * a + 1) * (m.natAbs * ((Fintype.card (ZMod n)ˣ - 1) * (2 * c + 1))) +
      (2 * a + 1) * ((2 * b + 1) * (1 * (2 * c + 1))) +
      (2 * a + 1) * ((2 * b + 1) * ((Fintype.card (ZMod n)ˣ - 1) * (e.natAbs * (b + 1)))) := by
  set I := fun a : ℕ => Finset.Icc (1 - (a : ℤ)) (a + 1) with hI
  have hIc : ∀ a : ℕ, (I a).card = 2 * a + 1 := by intro a; rw [hI, Int.card_Icc]; omega
  set U := (Finset.univ.erase (1 : (ZMod n)ˣ)) with hU
  have hUc : U.card = Fintype.card (ZMod n)ˣ - 1 := by rw [hU, Finset.card_erase_of_mem (Finset.mem_univ _), Finset.card_univ]
  have hbox : box n a b c = I a ×ˢ I b ×ˢ U ×ˢ I c := rfl
  have hsub : (box n a b c).filter (shift rho ek m e · ∉ box n a b c) ⊆
      (((I a).filter fun x => x + ek ∉ I a) ×ˢ I b ×ˢ U ×ˢ I c) ∪
      (I a ×ˢ ((I b).filter fun x => x + m ∉ I b) ×ˢ U ×ˢ I c) ∪
      (I a ×ˢ I b ×ˢ (U.filter fun r => r * rho ^ e ∉ U) ×ˢ I c) ∪
      (I a ×ˢ ((I b ×ˢ U ×ˢ I c).filter fun p => p.2.2 + e * p.1 ∉ I c)) := by
    rintro ⟨x, y, r, g⟩ h
    rw [hbox] at h
    simp only [Finset.mem_filter, Finset.mem_product, shift, Finset.mem_union] at h ⊢
    obtain ⟨⟨h1, h2, h3, h4⟩, h5⟩ := h
    by_cases c1 : x + ek ∈ I a
    · by_cases c2 : y + m ∈ I b
      · by_cases c3 : r * rho ^ e ∈ U
        · by_cases c4 : g + e * y ∈ I c
          · exact absurd ⟨c1, c2, c3, c4⟩ h5
          · exact .inr ⟨h1, ⟨h2, h3, h4⟩, c4⟩
        · exact .inl (.inr ⟨h1, h2, ⟨h3, c3⟩, h4⟩)
      · exact .inl (.inl (.inr ⟨h1, ⟨h2, c2⟩, h3, h4⟩))
    · exact .inl (.inl (.inl ⟨⟨h1, c1⟩, h2, h3, h4⟩))
  refine (Finset.card_le_card hsub).trans ?_
  refine (Finset.card_union_le _ _).trans (Nat.add_le_add ((Finset.card_union_le _ _).trans
    (Nat.add_le_add ((Finset.card_union_le _ _).trans (Nat.add_le_add ?_ ?_)) ?_)) ?_)
  · rw [Finset.card_product, Finset.card_product, Finset.card_product, hIc, hIc, hUc]
    exact Nat.mul_le_mul_right _ (moved_out a ek)
  · rw [Finset.card_product, Finset.card_product, Finset.card_product, hIc, hIc, hUc]
    exact Nat.mul_le_mul_left _ (Nat.mul_le_mul_right _ (moved_out b m))
  · rw [Finset.card_product, Finset.card_product, Finset.card_product, hIc, hIc, hIc]
    refine Nat.mul_le_mul_left _ (Nat.mul_le_mul_left _ (Nat.mul_le_mul_right _ ?_))
    rw [Finset.card_le_one]
    have key : ∀ r ∈ U.filter (fun r => r * rho ^ e ∉ U), r = (rho ^ e)⁻¹ := by
      intro r hr
      rw [Finset.mem_filter] at hr
      have : r * rho ^ e = 1 := by
        by_contra h
        exact hr.2 (Finset.mem_erase.mpr ⟨h, Finset.mem_univ _⟩)
      exact eq_inv_of_mul_eq_one_left this
    intro r hr r' hr'
    rw [key r hr, key r' hr']
  · rw [Finset.card_product, hIc]
    refine Nat.mul_le_mul_left _ ?_
    have hb' : (I b ×ˢ U ×ˢ I c).filter (fun p => p.2.2 + e * p.1 ∉ I c) ⊆
        (I b).biUnion fun y => ({y} : Finset ℤ) ×ˢ U ×ˢ ((I c).filter fun g => g + e * y ∉ I c) := by
      rintro ⟨y, r, g⟩ h
      simp only [Finset.mem_filter, Finset.mem_product, Finset.mem_biUnion, Finset.mem_singleton] at h ⊢
      exact ⟨y, h.1.1, rfl, h.1.2.1, h.1.2.2, h.2⟩
    refine (Finset.card_le_card hb').trans (Finset.card_biUnion_le.trans ?_)
    rw [← hIc b, ← smul_eq_mul ((I b).card)]
    refine Finset.sum_le_card_nsmul _ _ _ fun y hy => ?_
    rw [Finset.card_product, Finset.card_product, Finset.card_singleton, one_mul, hUc]
    refine Nat.mul_le_mul_left _ ((moved_out c (e * y)).trans ?_)
    rw [Int.natAbs_mul]
    refine Nat.mul_le_mul_left _ ?_
    rw [hI] at hy
    simp only [Finset.mem_Icc] at hy
    omega

/-- With s a power of t, the honest message is the made-up one for the shifted draws. -/
theorem real_eq_simulated {n N : ℕ} [NeZero n] {Gp : Type} [AddCommGroup Gp] (s t : (ZMod N)ˣ) (K : (ZMod (n * n))ˣ) (rho : (ZMod n)ˣ)
    (X G : Gp) (k e c : ℤ) (hc : s ^ k = t ^ c) (hX : X = k • G)
    (hK : (K : ZMod (n * n)) = pw (1 + (n : ZMod (n * n))) k * ((rho : ZMod n).val : ZMod (n * n)) ^ n) (d : Draw n) :
    real s t rho G k e d = simulated s t K X G e (shift rho (e * k) c e d) := by
  obtain ⟨a, m, r, g⟩ := d
  have : NeZero (n * n) := ⟨Nat.mul_ne_zero (NeZero.ne n) (NeZero.ne n)⟩
  unfold real simulated shift
  simp only [View.mk.injEq]
  refine ⟨?_, ?_, ?_, ?_, by ring, trivial, by ring⟩
  · rw [hc, ← zpow_add, add_comm]
  · have hr : Int.gcd ((r : ZMod n).val : ℤ) n = 1 := gcd_of_unit (by rw [Int.cast_natCast, ZMod.natCast_zmod_val]; exact r.isUnit)
    have ho : Int.gcd ((rho : ZMod n).val : ℤ) n = 1 := gcd_of_unit (by rw [Int.cast_natCast, ZMod.natCast_zmod_val]; exact rho.isUnit)
    have hz2 : ((((r * rho ^ e : (ZMod n)ˣ) : ZMod n).val : ℤ) : ZMod n) = (((r : ZMod n).val : ℤ) : ZMod n) * pw (((rho : ZMod n).val : ℤ) : ZMod n) e := by
      simp only [Int.cast_natCast, ZMod.natCast_zmod_val]
      rw [pw_unit, Units.val_mul]
    have h := honest_paillier hr ho k a e hz2
    simp only [Int.cast_natCast] at h
    rw [← hK, pw_unit] at h
    rw [add_comm a (e * k), h, mul_assoc, ← Units.val_mul, ← zpow_add]
    simp
  · congr 1
    have h1 : s ^ (a + e * k) = s ^ a * t ^ (c * e) := by
      rw [zpow_add, mul_comm e k, zpow_mul, hc, ← zpow_mul]
    rw [h1, ← zpow_mul]
    have h2 : s ^ a * t ^ (c * e) * t ^ (g + e * m) * t ^ ((m + c) * -e) = s ^ a * (t ^ (c * e) * t ^ (g + e * m) * t ^ ((m + c) * -e)) := by
      simp only [mul_assoc]
    rw [h2, ← zpow_add, ← zpow_add]
    congr 2
    ring
  · rw [hX, ← mul_smul, ← sub_smul]
    congr 1
    ring

theorem box_card {n a b c : ℕ} [NeZero n] : (box n a b c).card =
    (2 * a + 1) * ((2 * b + 1) * ((Fintype.card (ZMod n)ˣ - 1) * (2 * c + 1))) := by
  unfold box
  rw [Finset.card_product, Finset.card_product, Finset.card_product, Int.card_Icc, Int.card_Icc, Int.card_Icc,
    Finset.card_erase_of_mem (Finset.mem_univ _), Finset.card_univ]
  congr 1
  · omega
  · congr 1
    · omega
    · congr 1
      omega

open Classical in
/-- C107: the range proofs hide the plaintext.  Let s be a power of t modulo N and K an encryption of k.  For every challenge e and every
event T, the probability over the prover's draws that what it sends is in T differs from the probability that what somebody without the
secrets sends is in T by at most |e·k|/(2a+1) + N/(2b+1) + 1/(φ(n)−1) + |e|(b+1)/(2c+1). -/
theorem C107_hiding {n N : ℕ} [NeZero n] [NeZero N] {Gp : Type} [AddCommGroup Gp] (s t : (ZMod N)ˣ) (hst : ∃ l : ℤ, s = t ^ l)
    (K : (ZMod (n * n))ˣ) (rho : (ZMod n)ˣ) (X G : Gp) (k e : ℤ) (hX : X = k • G)
    (hK : (K : ZMod (n * n)) = pw (1 + (n : ZMod (n * n))) k * ((rho : ZMod n).val : ZMod (n * n)) ^ n)
    (hn : 2 < n) (a b c : ℕ) (T : Set (View n N Gp)) :
    |(((box n a b c).filter (real s t rho G k e · ∈ T)).card : ℚ) / (box n a b c).card -
        (((box n a b c).filter (simulated s t K X G e · ∈ T)).card : ℚ) / (box n a b c).card| ≤
      (|e * k| : ℤ) / (2 * a + 1) + N / (2 * b + 1) + 1 / (Nat.totient n - 1) + (|e| : ℤ) * (b + 1) / (2 * c + 1) := by
  obtain ⟨l, rfl⟩ := hst
  -- the exponent of S, reduced modulo the order of t
  obtain ⟨m, hm, hmN⟩ : ∃ m : ℤ, (t ^ l) ^ k = t ^ m ∧ m.natAbs ≤ N := by
    have hpos : 0 < orderOf t := orderOf_pos t
    refine ⟨(l * k) % orderOf t, by rw [zpow_mod_orderOf, zpow_mul], ?_⟩
    have h1 : orderOf t ≤ N := by
      have h2 : orderOf t ≤ Nat.totient N := by
        rw [← ZMod.card_units_eq_totient]
        exact orderOf_le_card_univ
      exact h2.trans (Nat.totient_le N)
    have h2 := Int.emod_nonneg (l * k) (by omega : (orderOf t : ℤ) ≠ 0)
    have h3 := Int.emod_lt_of_pos (l * k) (by omega : (0 : ℤ) < orderOf t)
    omega
  have hclose := count_close (box n a b c) (shift rho (e * k) m e) (shift_inj _ _ _ _) (real (t ^ l) t rho G k e) (simulated (t ^ l) t K X G e)
    (fun d _ => real_eq_simulated (t ^ l) t K rho X G k e m hm hX hK d) T
  have hmov := box_moved (n := n) (a := a) (b := b) (c := c) rho (e * k) m e
  rw [ZMod.card_units_eq_totient] at hmov
  have hcard := box_card (n := n) (a := a) (b := b) (c := c)
  rw [ZMod.card_units_eq_totient] at hcard
  have htot : 2 ≤ Nat.totient n := by
    have h1 := Nat.totient_even hn
    have h2 := Nat.totient_pos.mpr (by omega : 0 < n)
    obtain ⟨j, hj⟩ := h1
    omega
  generalize ((box n a b c).filter (real (t ^ l) t rho G k e · ∈ T)).card = R at *
  generalize ((box n a b c).filter (simulated (t ^ l) t K X G e · ∈ T)).card = S at *
  generalize ((box n a b c).filter (shift rho (e * k) m e · ∉ box n a b c)).card = M at *
  generalize (box n a b c).card = B at *
  obtain ⟨u, hu⟩ : ∃ u, Nat.totient n = u + 1 := ⟨Nat.totient n - 1, by omega⟩
  rw [hu] at hmov hcard htot ⊢
  simp only [Nat.add_sub_cancel] at hmov hcard
  have hu0 : 0 < u := by omega
  have hBpos : (0 : ℚ) < B := by rw [hcard]; push_cast; positivity
  have hM : (M : ℚ) / B ≤ (|e * k| : ℤ) / (2 * a + 1) + N / (2 * b + 1) + 1 / ((u + 1 : ℕ) - 1) + (|e| : ℤ) * (b + 1) / (2 * c + 1) := by
    rw [div_le_iff₀ hBpos]
    have hmov' : (M : ℚ) ≤ (|e * k| : ℤ) * ((2 * b + 1) * (u * (2 * c + 1))) + (2 * a + 1) * (N * (u * (2 * c + 1))) +
        (2 * a + 1) * ((2 * b + 1) * (1 * (2 * c + 1))) + (2 * a + 1) * ((2 * b + 1) * (u * ((|e| : ℤ) * (b + 1)))) := by
      have h1 : M ≤ (e * k).natAbs * ((2 * b + 1) * (u * (2 * c + 1))) + (2 * a + 1) * (N * (u * (2 * c + 1))) +
          (2 * a + 1) * ((2 * b + 1) * (1 * (2 * c + 1))) + (2 * a + 1) * ((2 * b + 1) * (u * (e.natAbs * (b + 1)))) := by
        refine hmov.trans ?_
        have := Nat.mul_le_mul_left (2 * a + 1) (Nat.mul_le_mul_right (u * (2 * c + 1)) hmN)
        omega
      have h2 : (M : ℚ) ≤ (((e * k).natAbs * ((2 * b + 1) * (u * (2 * c + 1))) + (2 * a + 1) * (N * (u * (2 * c + 1))) +
          (2 * a + 1) * ((2 * b + 1) * (1 * (2 * c + 1))) + (2 * a + 1) * ((2 * b + 1) * (u * (e.natAbs * (b + 1)))) : ℕ) : ℚ) := by
        exact_mod_cast h1
      have e1 : (((e * k).natAbs : ℕ) : ℚ) = ((|e * k| : ℤ) : ℚ) := by rw [Int.abs_eq_natAbs, Int.cast_natCast]
      have e2 : ((e.natAbs : ℕ) : ℚ) = ((|e| : ℤ) : ℚ) := by rw [Int.abs_eq_natAbs, Int.cast_natCast]
      rw [← e1, ← e2]
      refine h2.trans (le_of_eq ?_)
      simp only [Nat.cast_add, Nat.cast_mul, Nat.cast_ofNat, Nat.cast_one]
    refine hmov'.trans (le_of_eq ?_)
    rw [hcard]
    have hu' : (u : ℚ) ≠ 0 := by positivity
    push_cast
    have e3 : (u : ℚ) + 1 - 1 = u := by ring
    rw [e3]
    field_simp
  refine le_trans ?_ hM
  rw [← sub_div, abs_div, abs_of_pos hBpos]
  refine div_le_div_of_nonneg_right ?_ hBpos.le
  rw [abs_le]
  have h1 : (R : ℚ) ≤ S + M := by exact_mod_cast hclose.1
  have h2 : (S : ℚ) ≤ R + M := by exact_mod_cast hclose.2
  constructor <;> linarith

/-- C107: what `NewEncryptRangeMessage` sends is the honest view for its draws and for the challenge that the verifier derives. -/
theorem C107_enc_message (Hb : Bytes → Bytes) (cfg : ProofConfig) (ssid : Bytes) (K k rho : ℤ) (n N : ℕ) [NeZero n] [NeZero N] (s t : ℤ)
    (us ut : (ZMod N)ˣ) (hs : (us : ZMod N) = s) (ht : (ut : ZMod N) = t) (urho ur : (ZMod n)ˣ) (hrho : (urho : ZMod n) = rho) (d : Draws)
    (hr : (ur : ZMod n) = d.r) (hr0 : 0 ≤ d.r) (hrn : d.r < n) (m : EncMsg)
    (h : NewEncryptRangeMessage Hb cfg ssid K n k rho ((N : ℤ), s, t) d = .ok m) :
    encView n N m = some (real us ut urho (0 : PUnit) k (encChallenge Hb cfg ssid K n ((N : ℤ), s, t) m) (d.alpha, d.mu, ur, d.gamma)) := by
  have : NeZero (n * n) := ⟨Nat.mul_ne_zero (NeZero.ne n) (NeZero.ne n)⟩
  have gs : Int.gcd s N = 1 := gcd_of_unit (by rw [← hs]; exact us.isUnit)
  have gt : Int.gcd t N = 1 := gcd_of_unit (by rw [← ht]; exact ut.isUnit)
  have go : Int.gcd rho n = 1 := gcd_of_unit (by rw [← hrho]; exact urho.isUnit)
  unfold NewEncryptRangeMessage at h
  rw [if_neg (by have := NeZero.ne n; have := NeZero.ne N; simp; omega)] at h
  obtain ⟨S, hS0, hS1, hS⟩ := exists_residue (pw (s : ZMod N) k * pw (t : ZMod N) d.mu)
  obtain ⟨A, hA0, hA1, hA⟩ := exists_residue (pw (1 + (n : ZMod (n * n))) d.alpha * (d.r : ZMod (n * n)) ^ n)
  obtain ⟨C, hC0, hC1, hC⟩ := exists_residue (pw (s : ZMod N) d.alpha * pw (t : ZMod N) d.gamma)
  have eS : commit ((N : ℤ), s, t) k d.mu = some S := by
    rw [commit_some]; exact ⟨.inr gs, .inr gt, hS0, hS1, hS⟩
  have eA : enc0 (n : ℤ) d.alpha d.r = some A := by
    rw [enc0_some]; exact ⟨hA0, hA1, hA⟩
  have eC : commit ((N : ℤ), s, t) d.alpha d.gamma = some C := by
    rw [commit_some]; exact ⟨.inr gs, .inr gt, hC0, hC1, hC⟩
  rw [eS, eA, eC] at h
  simp only at h
  cases hE : GetE Hb cfg.curveN (encParts cfg ssid K n ((N : ℤ), s, t) S A C) d.salts with
  | panic => rw [hE] at h; simp at h
  | err er => rw [hE] at h; simp at h
  | ok es =>
    rw [hE] at h
    obtain ⟨e, salt⟩ := es
    obtain ⟨he, -, -⟩ := GetE_spec hE
    obtain ⟨z2, hz0, hz1, hz⟩ := exists_residue ((d.r : ZMod n) * pw (rho : ZMod n) e)
    have ez2 : mulExp d.r rho e (n : ℤ) = some z2 := by
      rw [mulExp_some]; exact ⟨.inr go, hz0, hz1, hz⟩
    simp only [ez2, Res.ok.injEq] at h
    subst h
    have hch : encChallenge Hb cfg ssid K n ((N : ℤ), s, t)
        ⟨salt, intBytes S, intBytes A, intBytes C, bigString (e * k + d.alpha), intBytes z2, bigString (e * d.mu + d.gamma)⟩ = e := by
      unfold encChallenge
      simp only [beNat_intBytes_nonneg hS0, beNat_intBytes_nonneg hA0, beNat_intBytes_nonneg hC0]
      exact he.symm
    rw [hch]
    unfold encView real
    simp only [parseBig_bigString, cast_beNat hS0, cast_beNat hA0, cast_beNat hC0, cast_beNat hz0, Option.some.injEq, View.mk.injEq]
    have hrv : (((ur : ZMod n).val : ℕ) : ZMod (n * n)) = ((d.r : ℤ) : ZMod (n * n)) := by
      obtain ⟨j, hj⟩ := Int.eq_ofNat_of_zero_le hr0
      rw [hr, hj, Int.cast_natCast, Int.cast_natCast, ZMod.val_natCast, Nat.mod_eq_of_lt (by omega)]
    refine ⟨?_, ?_, ?_, trivial, trivial, ?_, trivial⟩
    · rw [hS, Units.val_mul, ← pw_unit, ← pw_unit, hs, ht]
    · rw [hA, hrv]
    · rw [hC, Units.val_mul, ← pw_unit, ← pw_unit, hs, ht]
    · rw [hz, Units.val_mul, ← pw_unit, hr, hrho]

/-- C107: the same for `NewKnowExponentAndPaillierEncryption`, on points whose order divides the curve order. -/
theorem C107_log_message {cv : Curve} {Gp : Type} [AddCommGroup Gp] (L : Lawful cv Gp) (hnn : ∀ g, 0 ≤ (L.pt g).x ∧ 0 ≤ (L.pt g).y)
    (Hb : Bytes → Bytes) (cfg : ProofConfig) (ssid : Bytes) (x rho C : ℤ) (n N : ℕ) [NeZero n] [NeZero N] (s t : ℤ) (X G : ECPoint)
    (hG : cv.On G) (hGN : cv.N • L.val G = 0)
    (us ut : (ZMod N)ˣ) (hs : (us : ZMod N) = s) (ht : (ut : ZMod N) = t) (urho ur : (ZMod n)ˣ) (hrho : (urho : ZMod n) = rho) (d : Draws)
    (hr : (ur : ZMod n) = d.r) (hr0 : 0 ≤ d.r) (hrn : d.r < n) (m : LogMsg)
    (h : NewKnowExponent Hb cv cfg ssid x rho C n ((N : ℤ), s, t) X G d = .ok m) :
    logView n N L.val m =
      some (real us ut urho (L.val G) x (logChallenge Hb cfg ssid C n ((N : ℤ), s, t) X G m) (d.alpha, d.mu, ur, d.gamma)) := by
  have gs : Int.gcd s N = 1 := gcd_of_unit (by rw [← hs]; exact us.isUnit)
  have gt : Int.gcd t N = 1 := gcd_of_unit (by rw [← ht]; exact ut.isUnit)
  have go : Int.gcd rho n = 1 := gcd_of_unit (by rw [← hrho]; exact urho.isUnit)
  rcases log_new_spec L Hb cfg ssid x rho C n N s t X G hG d (NeZero.pos n) (NeZero.pos N) gs gt go with
    h' | ⟨S, A, D, z2, e, salt, hm, ⟨hS0, hS1, hS⟩, ⟨hA0, hA1, hA⟩, ⟨hD0, hD1, hD⟩, ⟨hz0, hz1, hz⟩, he, -, -⟩
  · rw [h'] at h; simp at h
  · rw [hm, Res.ok.injEq] at h
    generalize hY : L.pt ((d.alpha % cv.N) • L.val G) = Y at *
    have hYx : ((beNat (intBytes Y.x) : ℕ) : ℤ) = Y.x := beNat_intBytes_nonneg (hY ▸ (hnn _).1)
    have hYy : ((beNat (intBytes Y.y) : ℕ) : ℤ) = Y.y := beNat_intBytes_nonneg (hY ▸ (hnn _).2)
    subst h
    have hch : logChallenge Hb cfg ssid C n ((N : ℤ), s, t) X G
        ⟨salt, intBytes S, intBytes A, intBytes Y.x, intBytes Y.y, intBytes D, bigString (d.alpha + e * x), intBytes z2,
          bigString (d.gamma + e * d.mu)⟩ = e := by
      unfold logChallenge
      simp only [beNat_intBytes_nonneg hS0, beNat_intBytes_nonneg hA0, beNat_intBytes_nonneg hD0, hYx, hYy]
      exact he.symm
    rw [hch]
    unfold logView real
    simp only [parseBig_bigString, cast_beNat hS0, cast_beNat hA0, cast_beNat hD0, cast_beNat hz0, hYx, hYy, Option.some.injEq, View.mk.injEq]
    have hrv : (((ur : ZMod n).val : ℕ) : ZMod (n * n)) = ((d.r : ℤ) : ZMod (n * n)) := by
      obtain ⟨j, hj⟩ := Int.eq_ofNat_of_zero_le hr0
      rw [hr, hj, Int.cast_natCast, Int.cast_natCast, ZMod.val_natCast, Nat.mod_eq_of_lt (by omega)]
    refine ⟨?_, ?_, ?_, ?_, by ring, ?_, by ring⟩
    · rw [hS, Units.val_mul, ← pw_unit, ← pw_unit, hs, ht]
    · rw [hA, hrv]
    · rw [hD, Units.val_mul, ← pw_unit, ← pw_unit, hs, ht]
    · rw [show (⟨Y.x, Y.y⟩ : ECPoint) = Y from rfl, ← hY, L.val_pt, Lawful.emod_smul hGN]
    · rw [hz, Units.val_mul, ← pw_unit, hr, hrho]

set_option exponentiation.threshold 1000 in
/-- C107: the bound for the parameters of the code on edwards25519: a plaintext of at most the curve order, a challenge within the curve
order, and moduli of at least 2048 bits with the signer's Paillier modulus having few non-units.  Beyond 1/(φ(n)−1) the distance is
at most 2⁻²⁵⁰. -/
theorem C107_bound_ed25519 (k e : ℤ) (n N : ℕ) (hN : 0 < N) (hk : |k| ≤ Ed.curve.N) (he : |e| ≤ Ed.curve.N) :
    let cfg := NewProofConfig Ed.curve.N
    let a := cfg.twoExpLAddepsilon.toNat
    let b := (cfg.twoExpL * N).toNat
    let c := (cfg.twoExpLAddepsilon * N).toNat
    ((|e * k| : ℤ) : ℚ) / (2 * a + 1) + N / (2 * b + 1) + 1 / (Nat.totient n - 1) + (|e| : ℤ) * (b + 1) / (2 * c + 1) ≤
      1 / 2 ^ 250 + 1 / (Nat.totient n - 1) := by
  intro cfg a b c
  have hc : Ed.curve.N = 2 ^ 252 + 27742317777372353535851937790883648493 := rfl
  have hbl : bitLen Ed.curve.N = 253 := by rw [hc]; decide +kernel
  have ha : a = 2 ^ 760 := by
    show (2 * 2 ^ (1 * bitLen Ed.curve.N + 2 * bitLen Ed.curve.N) : ℤ).toNat = _
    rw [hbl]
    have : (2 * 2 ^ (1 * 253 + 2 * 253) : ℤ) = ((2 ^ 760 : ℕ) : ℤ) := by norm_num
    rw [this, Int.toNat_natCast]
  have hb : b = 2 ^ 254 * N := by
    show (2 * 2 ^ (1 * bitLen Ed.curve.N) * (N : ℤ)).toNat = _
    rw [hbl]
    have : (2 * 2 ^ (1 * 253) * (N : ℤ)) = ((2 ^ 254 * N : ℕ) : ℤ) := by push_cast; ring
    rw [this, Int.toNat_natCast]
  have hcc : c = 2 ^ 760 * N := by
    show (2 * 2 ^ (1 * bitLen Ed.curve.N + 2 * bitLen Ed.curve.N) * (N : ℤ)).toNat = _
    rw [hbl]
    have : (2 * 2 ^ (1 * 253 + 2 * 253) * (N : ℤ)) = ((2 ^ 760 * N : ℕ) : ℤ) := by push_cast; ring
    rw [this, Int.toNat_natCast]
  have hq : Ed.curve.N < 2 ^ 253 := by rw [hc]; norm_num
  generalize Ed.curve.N = q at hk he hq
  rw [ha, hb, hcc]
  have hek : ((|e * k| : ℤ) : ℚ) ≤ 2 ^ 506 := by
    have : |e * k| ≤ 2 ^ 506 := by
      rw [abs_mul]
      calc |e| * |k| ≤ 2 ^ 253 * 2 ^ 253 := mul_le_mul (he.trans hq.le) (hk.trans hq.le) (abs_nonneg _) (by positivity)
        _ = 2 ^ 506 := by norm_num
    exact_mod_cast this
  have hee : ((|e| : ℤ) : ℚ) ≤ 2 ^ 253 := by
    have : |e| ≤ 2 ^ 253 := he.trans hq.le
    exact_mod_cast this
  have hN' : (1 : ℚ) ≤ N := by exact_mod_cast hN
  generalize ((|e * k| : ℤ) : ℚ) = u at hek ⊢
  generalize ((|e| : ℤ) : ℚ) = v at hee ⊢
  have t1 : u / (2 * ((2 ^ 760 : ℕ) : ℚ) + 1) ≤ 1 / 2 ^ 252 := by
    rw [div_le_div_iff₀ (by positivity) (by positivity)]
    push_cast
    have : u * 2 ^ 252 ≤ 2 ^ 506 * 2 ^ 252 := mul_le_mul_of_nonneg_right hek (by positivity)
    refine this.trans ?_
    norm_num
  have t2 : (N : ℚ) / (2 * ((2 ^ 254 * N : ℕ) : ℚ) + 1) ≤ 1 / 2 ^ 252 := by
    rw [div_le_div_iff₀ (by positivity) (by positivity)]
    push_cast
    nlinarith
  have t3 : v * (((2 ^ 254 * N : ℕ) : ℚ) + 1) / (2 * ((2 ^ 760 * N : ℕ) : ℚ) + 1) ≤ 1 / 2 ^ 252 := by
    rw [div_le_div_iff₀ (by positivity) (by positivity)]
    have h1 : v * (((2 ^ 254 * N : ℕ) : ℚ) + 1) * 2 ^ 252 ≤ 2 ^ 253 * (((2 ^ 254 * N : ℕ) : ℚ) + 1) * 2 ^ 252 :=
      mul_le_mul_of_nonneg_right (mul_le_mul_of_nonneg_right hee (by positivity)) (by positivity)
    refine h1.trans ?_
    push_cast
    norm_num
    linarith
  have t4 : (1 : ℚ) / 2 ^ 252 + 1 / 2 ^ 252 + 1 / 2 ^ 252 ≤ 1 / 2 ^ 250 := by norm_num
  linarith

/-- C107: the condition on the ring-Pedersen parameters is needed: with t = 1 the first part of the message is s^k whatever the draws. -/
theorem C107_needs_power {n N : ℕ} {Gp : Type} [AddCommGroup Gp] (s : (ZMod N)ˣ) (rho : (ZMod n)ˣ) (G : Gp) (k k' e : ℤ) (d d' : Draw n)
    (h : (real s 1 rho G k e d).S = (real s 1 rho G k' e d').S) : k ≡ k' [ZMOD orderOf s] := by
  unfold real at h
  simp only [one_zpow, mul_one, Units.val_inj] at h
  rwa [zpow_eq_zpow_iff_modEq] at h

/-- Concrete: parameters (35, 4, 9) with 4 = 9⁵, and an encryption of 3 modulo 15 with randomness 2. -/
example : ∃ (s t : (ZMod 35)ˣ) (K : (ZMod (15 * 15))ˣ) (rho : (ZMod 15)ˣ), (s : ZMod 35) = 4 ∧ (t : ZMod 35) = 9 ∧ (∃ l : ℤ, s = t ^ l) ∧
    (K : ZMod (15 * 15)) = pw (1 + ((15 : ℕ) : ZMod (15 * 15))) 3 * ((rho : ZMod 15).val : ZMod (15 * 15)) ^ 15 ∧
    (K : ZMod (15 * 15)) = ct0 := by
  refine ⟨ZMod.unitOfCoprime 4 (by decide), ZMod.unitOfCoprime 9 (by decide), ZMod.unitOfCoprime 53 (by decide), ZMod.unitOfCoprime 2 (by decide),
    rfl, rfl, ⟨5, ?_⟩, ?_, ?_⟩
  · ext; decide +kernel
  · rw [show (3 : ℤ) = ((3 : ℕ) : ℤ) from rfl, pw_natCast]; decide +kernel
  · decide +kernel

end Tss.RangeProofs
