import Verif.Props.Ed25519
import Mathlib.GroupTheory.OrderOfElement
import Mathlib.GroupTheory.SpecificGroups.Cyclic
/-
The group of points of edwards25519 has exactly 8ℓ elements and is cyclic.  No Hasse bound is needed: there are at most
two points for each y, and ℓ and 8 divide the order.
-/
namespace Tss.Ed
open Tss Edw

theorem two_mul_ne {x : F} (hx : x ≠ 0) : x.val % 2 ≠ (-x).val % 2 := by
  have : NeZero x := ⟨hx⟩
  rw [ZMod.neg_val, if_neg hx]
  have h1 := ZMod.val_lt x
  have h2 : P % 2 = 1 := by decide +kernel
  omega

/-- The points with a given y are (x, y) and (-x, y). -/
theorem same_y {g h : Point} (hy : g.y = h.y) : g.x = h.x ∨ g.x = -h.x := by
  have h1 := g.on
  have h2 := h.on
  unfold OnC at h1 h2
  rw [hy] at h1
  have hne : 1 + d * h.y ^ 2 ≠ 0 := by
    intro h0
    obtain ⟨i, hi⟩ := complete.sq
    have hy0 : h.y ≠ 0 := by
      intro hz; rw [hz] at h0; simp at h0
    refine complete.nsq (i * h.y⁻¹) ?_
    field_simp
    linear_combination hi - h0
  have : (g.x - h.x) * (g.x + h.x) = 0 := by
    have : (1 + d * h.y ^ 2) * ((g.x - h.x) * (g.x + h.x)) = 0 := by linear_combination h2 - h1
    rcases mul_eq_zero.mp this with h' | h'
    · exact absurd h' hne
    · exact h'
  rcases mul_eq_zero.mp this with h' | h'
  · left; linear_combination h'
  · right; linear_combination h'

/-- The y-coordinate and the parity of x determine a point. -/
def yParity (g : Point) : F × Fin 2 := (g.y, ⟨g.x.val % 2, Nat.mod_lt _ (by decide)⟩)

theorem yParity_inj : Function.Injective yParity := by
  intro g h e
  simp only [yParity, Prod.mk.injEq, Fin.mk.injEq] at e
  obtain ⟨hy, hp⟩ := e
  have hx : g.x = h.x := by
    rcases same_y hy with hx | hx
    · exact hx
    · by_cases h0 : h.x = 0
      · rw [hx, h0, neg_zero]
      · rw [hx] at hp
        exact absurd hp.symm (two_mul_ne h0)
  ext
  · exact hx
  · exact hy

instance : Finite Point := Finite.of_injective _ yParity_inj

theorem card_le : Nat.card Point ≤ 2 * P := by
  have := Nat.card_le_card_of_injective _ yParity_inj
  rw [Nat.card_prod, Nat.card_zmod, Nat.card_fin] at this
  omega

/-- x of a point of order 8. -/
def Tx : Nat := 14399317868200118260347934320527232580618823971194345261214217575416788799818
/-- y of a point of order 8. -/
def Ty : Nat := 55188659117513257062467267217118295137698188065244968500265048394206261417927

/-- A point of order 8. -/
def T8 : Point where
  x := (Tx : F)
  y := (Ty : F)
  on := by
    unfold OnC
    have h : ((Ty ^ 2 : Nat) : F) = ((1 + dN * Tx ^ 2 * Ty ^ 2 + Tx ^ 2 : Nat) : F) := by
      rw [natCast_eq]; decide +kernel
    push_cast at h
    have hd : ((dN : Nat) : F) = d := rfl
    rw [hd] at h
    linear_combination h

/-- T8 in extended coordinates. -/
def extT : Ext := ⟨Tx, Ty, 1, feMul Tx Ty⟩

theorem rep_T8 : Rep extT T8 where
  z := by simp [extT]
  x := by simp [extT, T8]
  y := by simp [extT, T8]
  t := by simp [extT, T8]

theorem eight_T8 : 8 • T8 = 0 := by
  rw [rep_eq_zero (rep_smul 8 rep_T8)]; decide +kernel

theorem four_T8 : 4 • T8 ≠ 0 := by
  rw [Ne, rep_eq_zero (rep_smul 4 rep_T8)]; decide +kernel

theorem addOrderOf_T8 : addOrderOf T8 = 8 := by
  have : Fact (Nat.Prime 2) := ⟨Nat.prime_two⟩
  exact addOrderOf_eq_prime_pow (p := 2) (n := 2) (by simpa using four_T8) (by simpa using eight_T8)

theorem addOrderOf_B : addOrderOf B = ord := by
  have : Fact (Nat.Prime ord) := ⟨ord_prime⟩
  exact addOrderOf_eq_prime ord_smul_B B_ne_zero

theorem cop_eight : Nat.Coprime 8 ord := by decide +kernel

theorem card_eq : Nat.card Point = 8 * ord := by
  have h8 : 8 ∣ Nat.card Point := by rw [← addOrderOf_T8]; exact addOrderOf_dvd_natCard _
  have hl : ord ∣ Nat.card Point := by rw [← addOrderOf_B]; exact addOrderOf_dvd_natCard _
  obtain ⟨k, hk⟩ := cop_eight.mul_dvd_of_dvd_of_dvd h8 hl
  have hpos : 0 < Nat.card Point := Nat.card_pos
  have hle := card_le
  have hb : 2 * P < 8 * ord * 2 := by decide +kernel
  have : k < 2 := by
    by_contra hge
    have : 8 * ord * 2 ≤ 8 * ord * k := Nat.mul_le_mul_left _ (by omega)
    omega
  have : k ≠ 0 := by rintro rfl; omega
  have : k = 1 := by omega
  rw [hk, this, mul_one]

theorem exponent (g : Point) : (8 * ord) • g = 0 := by
  rw [← card_eq]; exact card_nsmul_eq_zero' 

theorem addOrderOf_BT : addOrderOf (B + T8) = 8 * ord := by
  have := (AddCommute.all B T8).addOrderOf_add_eq_mul_addOrderOf_of_coprime
    (by rw [addOrderOf_B, addOrderOf_T8]; exact cop_eight.symm)
  rw [this, addOrderOf_B, addOrderOf_T8, mul_comm]

instance cyclic : IsAddCyclic Point :=
  isAddCyclic_of_addOrderOf_eq_card (B + T8) (by rw [addOrderOf_BT, card_eq])

/-- The points killed by ℓ are the multiples of the base point. -/
theorem mem_subgroup {g : Point} (hg : ord • g = 0) : ∃ k : Nat, k < ord ∧ g = k • B := by
  obtain ⟨m, hm⟩ : ∃ m : Int, m • (B + T8) = g := by
    have : ∀ x : Point, x ∈ AddSubgroup.zmultiples (B + T8) := by
      have h : AddSubgroup.zmultiples (B + T8) = ⊤ := by
        apply AddSubgroup.eq_top_of_card_eq
        rw [Nat.card_zmultiples, addOrderOf_BT, card_eq]
      intro x; rw [h]; trivial
    exact AddSubgroup.mem_zmultiples_iff.mp (this g)
  have h8 : (8 : Int) ∣ m := by
    have h0 : ((ord : Int) * m) • (B + T8) = 0 := by
      rw [mul_smul, hm, natCast_zsmul, hg]
    have := addOrderOf_dvd_iff_zsmul_eq_zero.mpr h0
    rw [addOrderOf_BT] at this
    obtain ⟨c, hc⟩ := this
    have hl : (ord : Int) ≠ 0 := by exact_mod_cast ord_prime.ne_zero
    refine ⟨c, ?_⟩
    apply mul_left_cancel₀ hl
    rw [hc]; push_cast; ring
  obtain ⟨c, rfl⟩ := h8
  have hT : (8 * c) • T8 = 0 := by
    rw [mul_comm, mul_smul, show (8 : Int) • T8 = (8 : Nat) • T8 from natCast_zsmul T8 8, eight_T8, smul_zero]
  have hgB : g = (8 * c) • B := by rw [← hm, smul_add, hT, add_zero]
  have hl0 : (ord : Int) ≠ 0 := by exact_mod_cast ord_prime.ne_zero
  have hpos := Int.emod_nonneg (8 * c) hl0
  have hlt := Int.emod_lt_of_pos (8 * c) (show (0 : Int) < ord by exact_mod_cast ord_prime.pos)
  refine ⟨(8 * c % ord).toNat, by omega, ?_⟩
  rw [hgB, ← natCast_zsmul, Int.toNat_of_nonneg hpos]
  have e := Int.emod_add_mul_ediv (8 * c) ord
  have : (8 * c) • B = (8 * c % ord) • B + (ord * (8 * c / ord) : Int) • B := by rw [← add_smul, e]
  rw [this, mul_comm (ord : Int), mul_smul, natCast_zsmul, ord_smul_B, smul_zero, add_zero]

end Tss.Ed
