import Verif.Props.UnbiasedSum
import Verif.Model.ModProof
import Mathlib.GroupTheory.Index
import Mathlib.Data.ZMod.Units
import Mathlib.Tactic.NormNum.LegendreSymbol
/-
C89, squares, non-residues and bytes: GetRandomGeneratorOfTheQuadraticResidue gives every square of a unit with the same probability,
GetRandomQuadraticNonResidue every number of Jacobi symbol -1, and GetRandomBytes every byte string.
-/
namespace Tss.Common
open Tss

/-- C89: byte strings of length ℓ that a draw of type `Run (Int × Bytes)` uses up exactly with result v. -/
def spec.ends (draw : Nat → Bytes → Run (Int × Bytes)) (l : Nat) (v : Int) : Set Bytes :=
  {t | t.length = l ∧ ∃ fuel, draw fuel t = some (.ok (v, []))}

theorem retry_mono {bits : Nat} {good : Int → Bool} : ∀ (f : Nat) (t : Bytes) (r : Res Unit (Option Int × Bytes)),
    retry bits good f t = some r → ∀ g, f ≤ g → retry bits good g t = some r
  | 0, _, _, h => by cases h
  | f + 1, t, r, h => fun g hg => by
    obtain ⟨g, rfl⟩ : ∃ g', g = g' + 1 := ⟨g - 1, by omega⟩
    unfold retry at h ⊢
    cases hm : MustGetRandomInt bits t with
    | panic => rw [hm] at h; exact h
    | err e => rw [hm] at h; exact h
    | ok p =>
      rw [hm] at h
      simp only at h ⊢
      split
      · rw [if_pos ‹_›] at h; exact h
      · rw [if_neg ‹_›] at h; exact retry_mono f _ _ h g (by omega)

theorem retry_same {bits : Nat} {good : Int → Bool} {f g : Nat} {t : Bytes} {v w : Int}
    (h : retry bits good f t = some (.ok (some v, []))) (h' : retry bits good g t = some (.ok (some w, []))) : v = w := by
  have a := retry_mono f t _ h (max f g) (le_max_left _ _)
  rw [retry_mono g t _ h' (max f g) (le_max_right _ _)] at a
  simp only [Option.some.injEq, Res.ok.injEq, Prod.mk.injEq, and_true] at a
  exact a.symm

theorem relPrime_is_retry (n : Nat) (hn : 0 < n) (f : Nat) (t : Bytes) : GetRandomPositiveRelativelyPrimeInt (some (n : Int)) f t =
    retry (bitLen (n : Int)) (fun x => IsNumberInMultiplicativeGroup (some (n : Int)) (some x)) f t := by
  rw [← relPrime_retry]
  unfold GetRandomPositiveRelativelyPrimeInt
  simp only
  rw [if_neg (by omega)]

theorem retry_good {bits : Nat} {good : Int → Bool} : ∀ {f : Nat} {t : Bytes} {v : Int} {r : Bytes},
    retry bits good f t = some (.ok (some v, r)) → good v = true
  | 0, _, _, _, h => by cases h
  | f + 1, t, v, r, h => by
    unfold retry at h
    cases hm : MustGetRandomInt bits t with
    | panic => rw [hm] at h; cases h
    | err e => rw [hm] at h; cases h
    | ok p =>
      rw [hm] at h
      simp only at h
      split at h
      · simp only [Option.some.injEq, Res.ok.injEq, Prod.mk.injEq] at h
        rw [← h.1]; assumption
      · exact retry_good h

/-- The units below n whose square is v. -/
def rootsOf (n v : Nat) : Finset Nat := (Finset.range n).filter fun f => Nat.Coprime f n ∧ f * f % n = v

theorem ends_square (n : Nat) (h1 : 1 < n) (l v : Nat) :
    spec.ends (GetRandomGeneratorOfTheQuadraticResidue (some n)) l v =
      ⋃ f ∈ rootsOf n v, spec.outcomes (GetRandomPositiveRelativelyPrimeInt (some n)) l (f : Nat) := by
  ext t
  simp only [Set.mem_iUnion, exists_prop, spec.ends, spec.outcomes, Set.mem_ofPred_eq]
  constructor
  · rintro ⟨hl, fuel, h⟩
    unfold GetRandomGeneratorOfTheQuadraticResidue at h
    cases hg : GetRandomPositiveRelativelyPrimeInt (some (n : Int)) fuel t with
    | none => rw [hg] at h; cases h
    | some r =>
      rw [hg] at h
      rcases r with ⟨_ | f, rest⟩ | _ | _
      · cases h
      · simp only [Option.some.injEq, Res.ok.injEq, Prod.mk.injEq, Option.getD_some] at h
        obtain ⟨hv, rfl⟩ := h
        have hgood := hg
        rw [relPrime_is_retry n (by omega)] at hgood
        have hgood := retry_good hgood
        rw [C04_group_test] at hgood
        obtain ⟨-, g1, g2, g3⟩ := hgood
        obtain ⟨x, rfl⟩ : ∃ x : Nat, f = x := ⟨f.toNat, by omega⟩
        refine ⟨x, ?_, hl, fuel, hg⟩
        unfold rootsOf
        rw [Finset.mem_filter, Finset.mem_range]
        rw [Int.gcd_natCast_natCast] at g3
        exact ⟨by omega, g3, by exact_mod_cast hv⟩
      · cases h
      · cases h
  · rintro ⟨f, hf, hl, fuel, h⟩
    refine ⟨hl, fuel, ?_⟩
    unfold rootsOf at hf
    rw [Finset.mem_filter, Finset.mem_range] at hf
    unfold GetRandomGeneratorOfTheQuadraticResidue
    rw [h]
    simp only [Option.some.injEq, Res.ok.injEq, Prod.mk.injEq, Option.getD_some, and_true]
    rw [← hf.2.2]; push_cast; rfl

theorem bytes_finite (l : Nat) : {t : Bytes | t.length = l}.Finite := by
  have : Finite UInt8 := Finite.of_injective UInt8.toFin fun a b h => UInt8.toFin_inj.1 h
  exact List.finite_length_eq UInt8 l

theorem ends_square_card (n : Nat) (h1 : 1 < n) (l v : Nat) :
    Nat.card (spec.ends (GetRandomGeneratorOfTheQuadraticResidue (some n)) l v) =
      ∑ f ∈ rootsOf n v, Nat.card (spec.outcomes (GetRandomPositiveRelativelyPrimeInt (some n)) l (f : Nat)) := by
  rw [ends_square n h1]
  have hfin : ∀ f : Nat, (spec.outcomes (GetRandomPositiveRelativelyPrimeInt (some (n : Int))) l (f : Nat)).Finite :=
    fun f => (bytes_finite l).subset fun t ht => ht.1
  generalize rootsOf n v = R
  induction R using Finset.induction_on with
  | empty => simp
  | insert a s ha ih =>
    rw [Finset.sum_insert ha, ← ih, Finset.set_biUnion_insert]
    simp only [Nat.card_coe_set_eq]
    refine Set.ncard_union_eq ?_ (hfin a) (s.finite_toSet.biUnion fun f _ => hfin f)
    rw [Set.disjoint_left]
    rintro t ⟨-, f, h⟩ ht
    simp only [Set.mem_iUnion, exists_prop] at ht
    obtain ⟨b, hb, -, g, h'⟩ := ht
    rw [relPrime_is_retry n (by omega)] at h h'
    have := retry_same h h'
    exact ha (by have e : a = b := by exact_mod_cast this
                 exact e ▸ hb)

/-- The number of square roots does not depend on the square. -/
theorem roots_card (n : Nat) (h1 : 1 < n) (v : Nat) (hv : ∃ f : Nat, f.Coprime n ∧ v = f * f % n) :
    (rootsOf n v).card * Nat.card {w : Nat // ∃ f : Nat, f.Coprime n ∧ w = f * f % n} = Nat.totient n := by
  classical
  have : NeZero n := ⟨by omega⟩
  let sq : (ZMod n)ˣ →* (ZMod n)ˣ := powMonoidHom 2
  have hval : ∀ u : (ZMod n)ˣ, (sq u : ZMod n) = (u : ZMod n) * u := fun u => by
    show ((u ^ 2 : (ZMod n)ˣ) : ZMod n) = _
    rw [Units.val_pow_eq_pow_val, pow_two]
  -- squares and the image
  have e1 : Nat.card {w : Nat // ∃ f : Nat, f.Coprime n ∧ w = f * f % n} = Nat.card sq.range := by
    refine (Nat.card_congr (Equiv.ofBijective (fun g : sq.range => (⟨((g : (ZMod n)ˣ) : ZMod n).val, ?_⟩ : {w : Nat // ∃ f : Nat, f.Coprime n ∧ w = f * f % n})) ⟨?_, ?_⟩)).symm
    · obtain ⟨g, u, rfl⟩ := g
      refine ⟨(u : ZMod n).val, ZMod.val_coe_unit_coprime u, ?_⟩
      show ((sq u : ZMod n)).val = _
      rw [hval, ZMod.val_mul]
    · intro a b h
      have := congrArg Subtype.val h
      exact Subtype.ext (Units.ext (ZMod.val_injective n this))
    · rintro ⟨w, f, hf, rfl⟩
      refine ⟨⟨sq (ZMod.unitOfCoprime f hf), ZMod.unitOfCoprime f hf, rfl⟩, Subtype.ext ?_⟩
      show ((sq (ZMod.unitOfCoprime f hf) : ZMod n)).val = _
      rw [hval, ZMod.coe_unitOfCoprime, ← Nat.cast_mul, ZMod.val_natCast]
  obtain ⟨f0, hf0, rfl⟩ := hv
  have e2 : (rootsOf n (f0 * f0 % n)).card = Nat.card sq.ker := by
    have : (rootsOf n (f0 * f0 % n)).card = ((Finset.univ : Finset (ZMod n)ˣ).filter fun u => sq u = sq (ZMod.unitOfCoprime f0 hf0)).card := by
      refine (Finset.card_bij (fun (u : (ZMod n)ˣ) _ => ((u : ZMod n)).val) ?_ ?_ ?_).symm
      · intro u hu
        rw [Finset.mem_filter] at hu
        unfold rootsOf
        rw [Finset.mem_filter, Finset.mem_range]
        refine ⟨ZMod.val_lt _, ZMod.val_coe_unit_coprime u, ?_⟩
        have := congrArg (fun g : (ZMod n)ˣ => (g : ZMod n).val) hu.2
        simp only [hval, ZMod.coe_unitOfCoprime] at this
        rw [ZMod.val_mul, ← Nat.cast_mul, ZMod.val_natCast] at this
        exact this
      · intro a _ b _ h
        exact Units.ext (ZMod.val_injective n h)
      · intro x hx
        unfold rootsOf at hx
        rw [Finset.mem_filter, Finset.mem_range] at hx
        refine ⟨ZMod.unitOfCoprime x hx.2.1, ?_, ?_⟩
        · rw [Finset.mem_filter]
          refine ⟨Finset.mem_univ _, Units.ext ?_⟩
          rw [hval, hval, ZMod.coe_unitOfCoprime, ZMod.coe_unitOfCoprime, ← Nat.cast_mul, ← Nat.cast_mul]
          rw [ZMod.natCast_eq_natCast_iff]
          exact hx.2.2
        · rw [ZMod.coe_unitOfCoprime, ZMod.val_natCast, Nat.mod_eq_of_lt hx.1]
    rw [this, MonoidHom.card_fiber_eq_of_mem_range sq (x := sq (ZMod.unitOfCoprime f0 hf0)) (y := 1) ⟨_, rfl⟩ ⟨1, map_one _⟩,
      Nat.card_eq_fintype_card, Fintype.card_subtype]
    congr 1
    ext g
    simp only [Finset.mem_filter, Finset.mem_univ, true_and, MonoidHom.mem_ker]
  rw [e1, e2, ← Subgroup.index_ker, Subgroup.card_mul_index, Nat.card_eq_fintype_card, ZMod.card_units_eq_totient]

/-- C89: GetRandomGeneratorOfTheQuadraticResidue gives every square of a unit modulo n with probability exactly one over the number of
these squares. -/
theorem C89_squares (n v : Nat) (h1 : 1 < n) (hn : n < 2 ^ 5000) (hv : ∃ f : Nat, f.Coprime n ∧ v = f * f % n) :
    HasSum (fun l => (Nat.card (spec.ends (GetRandomGeneratorOfTheQuadraticResidue (some n)) l v) : ℝ) / 256 ^ l)
      (1 / (Nat.card {w : Nat // ∃ f : Nat, f.Coprime n ∧ w = f * f % n} : ℝ)) := by
  have hsum := hasSum_sum (s := rootsOf n v)
    (f := fun (f : Nat) (l : Nat) => (Nat.card (spec.outcomes (GetRandomPositiveRelativelyPrimeInt (some (n : Int))) l (f : Nat)) : ℝ) / 256 ^ l)
    (a := fun _ => 1 / (Nat.totient n : ℝ)) (fun f hf => by
      unfold rootsOf at hf
      rw [Finset.mem_filter, Finset.mem_range] at hf
      refine C89_probability_units n f hn ⟨?_, hf.1, hf.2.1⟩
      rcases Nat.eq_zero_or_pos f with rfl | h
      · have := hf.2.1
        rw [Nat.coprime_zero_left] at this
        omega
      · exact h)
  rw [Finset.sum_const, nsmul_eq_mul] at hsum
  have hcard := roots_card n h1 v hv
  have htot : 0 < Nat.totient n := Nat.totient_pos.mpr (by omega)
  have e : (1 / (Nat.card {w : Nat // ∃ f : Nat, f.Coprime n ∧ w = f * f % n} : ℝ)) = ((rootsOf n v).card : ℝ) * (1 / (Nat.totient n : ℝ)) := by
    rw [← hcard] at htot ⊢
    have ha : (0 : ℝ) < (rootsOf n v).card := by exact_mod_cast Nat.pos_of_mul_pos_right htot
    have hb : (0 : ℝ) < Nat.card {w : Nat // ∃ f : Nat, f.Coprime n ∧ w = f * f % n} := by exact_mod_cast Nat.pos_of_mul_pos_left htot
    push_cast
    field_simp
  rw [e]
  convert hsum using 2 with l
  rw [ends_square_card n h1, Nat.cast_sum, Finset.sum_div]

/-! ### Numbers of Jacobi symbol -1 -/

/-- A successful draw reads a whole number of chunks. -/
theorem retry_prefix {bits : Nat} (h2 : 2 ≤ bits) (h5 : bits ≤ 5000) {good : Int → Bool}
    (hg : ∀ x : Nat, good x = true → x < 2 ^ bits - 1) {v : Int} {r : Bytes} : ∀ (m : Nat) (t : Bytes), t.length = m → ∀ f,
    retry bits good f t = some (.ok (some v, r)) →
    ∃ (p : Bytes) (w : Nat), t = p ++ r ∧ v = w ∧ Drawn ((bits + 7) / 8) (2 ^ bits) (fun x => good x) p w := by
  have hk : 0 < (bits + 7) / 8 := by omega
  intro m
  induction m using Nat.strong_induction_on with
  | _ m ih =>
    intro t hm f h
    cases f with
    | zero => cases h
    | succ f =>
      by_cases hs : t.length < (bits + 7) / 8
      · unfold retry at h; rw [must_short h2 h5 hs] at h; cases h
      · obtain ⟨a, u, rfl, ha⟩ : ∃ a u, t = a ++ u ∧ a.length = (bits + 7) / 8 :=
          ⟨t.take ((bits + 7) / 8), t.drop ((bits + 7) / 8), (List.take_append_drop _ t).symm, by rw [List.length_take]; omega⟩
        have hu : u.length < m := by rw [← hm, List.length_append]; omega
        have must := must_step h2 h5 ha u
        by_cases hx : beNat a % 2 ^ bits < 2 ^ bits - 1
        · rw [if_pos hx] at must
          unfold retry at h
          rw [must] at h
          simp only at h
          by_cases hgx : good ((beNat a % 2 ^ bits : Nat) : Int) = true
          · rw [if_pos hgx] at h
            simp only [Option.some.injEq, Res.ok.injEq, Prod.mk.injEq] at h
            obtain ⟨rfl, rfl⟩ := h
            exact ⟨a, _, rfl, rfl, .hit a ha hgx⟩
          · rw [if_neg hgx] at h
            obtain ⟨p, w, rfl, h3, h4⟩ := ih _ hu u rfl f h
            exact ⟨a ++ p, w, (List.append_assoc ..).symm, h3, .miss a p w ha (by simpa using hgx) h4⟩
        · rw [if_neg hx] at must
          have hgx : good ((beNat a % 2 ^ bits : Nat) : Int) = false := by
            cases h : good ((beNat a % 2 ^ bits : Nat) : Int) with
            | true => exact absurd (hg _ h) hx
            | false => rfl
          have hr : retry bits good (f + 1) (a ++ u) = retry bits good (f + 1) u := by unfold retry; rw [must]
          rw [hr] at h
          obtain ⟨p, w, rfl, h3, h4⟩ := ih _ hu u rfl (f + 1) h
          exact ⟨a ++ p, w, (List.append_assoc ..).symm, h3, .miss a p w ha hgx h4⟩

/-- And conversely. -/
theorem retry_of_drawn {bits : Nat} (h2 : 2 ≤ bits) (h5 : bits ≤ 5000) {good : Int → Bool}
    (hg : ∀ x : Nat, good x = true → x < 2 ^ bits - 1) {p : Bytes} {w : Nat}
    (h : Drawn ((bits + 7) / 8) (2 ^ bits) (fun x => good x) p w) (r : Bytes) :
    ∃ f, retry bits good f (p ++ r) = some (.ok (some (w : Int), r)) := by
  induction h with
  | hit a ha hgx =>
    refine ⟨1, ?_⟩
    have must := must_step h2 h5 ha r
    rw [if_pos (hg _ hgx)] at must
    unfold retry
    rw [must]
    simp only
    rw [if_pos hgx]
  | miss a t v ha hgx _ ih =>
    obtain ⟨f, hf⟩ := ih
    rw [List.append_assoc]
    have must := must_step h2 h5 ha (t ++ r)
    by_cases hx : beNat a % 2 ^ bits < 2 ^ bits - 1
    · rw [if_pos hx] at must
      refine ⟨f + 1, ?_⟩
      unfold retry
      rw [must]
      simp only
      rw [if_neg (by simpa using hgx)]
      exact hf
    · rw [if_neg hx] at must
      refine ⟨f, ?_⟩
      rw [← hf]
      cases f with
      | zero => rfl
      | succ f => conv_lhs => unfold retry
                  rw [must]
                  conv_rhs => unfold retry

theorem positive_is_retry (n : Nat) (hn : 0 < n) (f : Nat) (t : Bytes) :
    GetRandomPositiveInt (some (n : Int)) f t = retry (bitLen (n : Int)) (fun x => decide (x < (n : Int))) f t := by
  rw [← positive_retry]
  unfold GetRandomPositiveInt
  simp only
  rw [if_neg (by omega)]

theorem drawn_weaken {k M : Nat} {g g' : Nat → Bool} (hgg : ∀ x, g' x = true → g x = true) {t : Bytes} {v : Nat}
    (h : Drawn k M g t v) (hv : g' v = true) : Drawn k M g' t v := by
  induction h with
  | hit a ha _ => exact .hit a ha hv
  | miss a t v ha hb _ ih =>
    refine .miss a t v ha ?_ (ih hv)
    cases h : g' (beNat a % M) with
    | false => rfl
    | true => rw [hgg _ h] at hb; cases hb

theorem drawn_skip {k M : Nat} {g g' : Nat → Bool} (hgg : ∀ x, g' x = true → g x = true) {p t : Bytes} {w v : Nat}
    (h : Drawn k M g p w) (hw : g' w = false) (ht : Drawn k M g' t v) : Drawn k M g' (p ++ t) v := by
  induction h with
  | hit a ha _ => exact .miss a t v ha hw ht
  | miss a s w ha hb _ ih =>
    rw [List.append_assoc]
    refine .miss a _ v ha ?_ (ih hw)
    cases h : g' (beNat a % M) with
    | false => rfl
    | true => rw [hgg _ h] at hb; cases hb

end Tss.Common

namespace Tss.ModProof
open Tss Common

theorem jacobi_cast (n : Nat) (hodd : n % 2 = 1) (x : Nat) : jacobi (x : Int) (n : Int) = some (jacobiSym x n) := by
  unfold jacobi
  rw [if_neg (by omega), if_neg (by omega), Int.natAbs_natCast]

/-- the numbers the loop accepts -/
def minusOne (n : Nat) (x : Int) : Bool := decide (x < (n : Int)) && decide (jacobiSym x n = -1)

theorem nonResidue_mono (n : Nat) (hn : 0 < n) {i j : Nat} (hij : i ≤ j) : ∀ (f : Nat) (t : Bytes) (r : Res Unit (Int × Bytes)),
    nonResidueLoop n i f t = some r → ∀ g, f ≤ g → nonResidueLoop n j g t = some r
  | 0, _, _, h => by cases h
  | f + 1, t, r, h => fun g hg => by
    obtain ⟨g, rfl⟩ : ∃ g', g = g' + 1 := ⟨g - 1, by omega⟩
    unfold nonResidueLoop at h ⊢
    rw [positive_is_retry n hn] at h ⊢
    cases hm : retry (bitLen (n : Int)) (fun x => decide (x < (n : Int))) i t with
    | none => rw [hm] at h; cases h
    | some q =>
      rw [hm] at h
      rw [retry_mono i t q hm j hij]
      rcases q with ⟨_ | w, rest⟩ | _ | _
      · exact h
      · simp only at h ⊢
        cases hj : jacobi w n with
        | none => rw [hj] at h; exact h
        | some s =>
          rw [hj] at h
          simp only at h ⊢
          split
          · rw [if_pos ‹_›] at h; exact h
          · rw [if_neg ‹_›] at h; exact nonResidue_mono n hn hij f _ _ h g (by omega)
      · exact h
      · exact h

theorem nonResidue_drawn (n : Nat) (hodd : n % 2 = 1) (h1 : 1 < n) (hn : n < 2 ^ 5000) (v : Nat) (t : Bytes) :
    (∃ f, GetRandomQuadraticNonResidue n f t = some (.ok ((v : Int), []))) ↔
      Drawn ((bitLen (n : Int) + 7) / 8) (2 ^ bitLen (n : Int)) (fun x => minusOne n x) t v := by
  obtain ⟨b2, b5⟩ := bits_range (n := n) (by omega) hn
  have hgood : ∀ x : Nat, decide ((x : Int) < (n : Int)) = true → x < 2 ^ bitLen (n : Int) - 1 :=
    fun x hx => lt_pow_bitLen_sub_one (by simpa using hx)
  have hgg : ∀ x : Nat, minusOne n x = true → decide ((x : Int) < (n : Int)) = true := fun x hx => by
    unfold minusOne at hx; rw [Bool.and_eq_true] at hx; exact hx.1
  constructor
  · rintro ⟨f, h⟩
    unfold GetRandomQuadraticNonResidue at h
    generalize hi : f = i at h
    rw [← hi] at h
    have : ∀ (g : Nat) (t : Bytes), nonResidueLoop n f g t = some (.ok ((v : Int), [])) →
        Drawn ((bitLen (n : Int) + 7) / 8) (2 ^ bitLen (n : Int)) (fun x => minusOne n x) t v := by
      intro g
      induction g with
      | zero => intro t h; cases h
      | succ g ih =>
        intro t h
        unfold nonResidueLoop at h
        cases hm : GetRandomPositiveInt (some (n : Int)) f t with
        | none => rw [hm] at h; cases h
        | some q =>
          rw [hm] at h
          rcases q with ⟨_ | w, rest⟩ | _ | _
          · cases h
          · rw [positive_is_retry n (by omega)] at hm
            obtain ⟨p, x, rfl, rfl, hd⟩ := retry_prefix b2 b5 (good := fun x => decide (x < (n : Int))) hgood _ t rfl f hm
            simp only at h
            rw [jacobi_cast n hodd] at h
            simp only at h
            have hx : decide ((x : Int) < (n : Int)) = true := hd.good
            by_cases hj : jacobiSym x n = -1
            · rw [if_pos hj] at h
              simp only [Option.some.injEq, Res.ok.injEq, Prod.mk.injEq] at h
              obtain ⟨h3, rfl⟩ := h
              have : x = v := by exact_mod_cast h3
              subst this
              rw [List.append_nil]
              refine drawn_weaken hgg hd ?_
              show minusOne n x = true
              unfold minusOne; rw [hx, decide_eq_true hj]; rfl
            · rw [if_neg hj] at h
              refine drawn_skip hgg hd ?_ (ih _ h)
              show minusOne n x = false
              unfold minusOne; rw [decide_eq_false hj, Bool.and_false]
          · cases h
          · cases h
    exact this f t h
  · intro hd
    suffices ∃ i g, nonResidueLoop n i g t = some (.ok ((v : Int), [])) by
      obtain ⟨i, g, h⟩ := this
      refine ⟨max i g, ?_⟩
      unfold GetRandomQuadraticNonResidue
      exact nonResidue_mono n (by omega) (le_max_left i g) g t _ h _ (le_max_right i g)
    induction hd with
    | hit a ha hgx =>
      have hgx' : minusOne n ((beNat a % 2 ^ bitLen (n : Int) : Nat) : Int) = true := hgx
      obtain ⟨f, hf⟩ := retry_of_drawn b2 b5 (good := fun x => decide (x < (n : Int))) hgood (.hit a ha (hgg _ hgx)) []
      rw [List.append_nil] at hf
      refine ⟨f, 1, ?_⟩
      unfold nonResidueLoop
      rw [positive_is_retry n (by omega), hf]
      simp only
      rw [jacobi_cast n hodd]
      simp only
      unfold minusOne at hgx'
      rw [Bool.and_eq_true, decide_eq_true_eq, decide_eq_true_eq] at hgx'
      rw [if_pos hgx'.2]
    | miss a t v ha hgx _ ih =>
      obtain ⟨i, g, h⟩ := ih
      have hgx' : minusOne n ((beNat a % 2 ^ bitLen (n : Int) : Nat) : Int) = false := hgx
      by_cases hlt : decide (((beNat a % 2 ^ bitLen (n : Int) : Nat) : Int) < (n : Int)) = true
      · obtain ⟨f, hf⟩ := retry_of_drawn b2 b5 (good := fun x => decide (x < (n : Int))) hgood (.hit a ha hlt) t
        refine ⟨max i f, g + 1, ?_⟩
        unfold nonResidueLoop
        rw [positive_is_retry n (by omega), retry_mono f _ _ hf _ (le_max_right i f)]
        simp only
        rw [jacobi_cast n hodd]
        simp only
        rw [if_neg ?_]
        · exact nonResidue_mono n (by omega) (le_max_left i f) g t _ h g le_rfl
        · intro hj
          unfold minusOne at hgx'
          rw [hlt, decide_eq_true hj] at hgx'
          cases hgx'
      · cases g with
        | zero => cases h
        | succ g =>
          have must := must_step b2 b5 ha t
          have hr : ∀ f, ∃ f', ∀ q, retry (bitLen (n : Int)) (fun x => decide (x < (n : Int))) f t = some q →
              retry (bitLen (n : Int)) (fun x => decide (x < (n : Int))) f' (a ++ t) = some q := by
            intro f
            refine ⟨f + 1, fun q hq => ?_⟩
            unfold retry
            rw [must]
            by_cases hx : beNat a % 2 ^ bitLen (n : Int) < 2 ^ bitLen (n : Int) - 1
            · rw [if_pos hx]
              simp only
              rw [if_neg hlt]
              exact hq
            · rw [if_neg hx]
              have := retry_mono f t q hq (f + 1) (by omega)
              unfold retry at this
              exact this
          obtain ⟨i', hi'⟩ := hr i
          refine ⟨max i i', g + 1, ?_⟩
          have h' := nonResidue_mono n (by omega) (le_max_left i i') (g + 1) t _ h (g + 1) le_rfl
          have hne : retry (bitLen (n : Int)) (fun x => decide (x < (n : Int))) i t ≠ none := by
            intro hc
            unfold nonResidueLoop at h
            rw [positive_is_retry n (by omega), hc] at h
            cases h
          obtain ⟨q, hq⟩ := Option.ne_none_iff_exists'.mp hne
          rw [← h']
          unfold nonResidueLoop
          rw [positive_is_retry n (by omega), positive_is_retry n (by omega),
            retry_mono i' _ _ (hi' q hq) _ (le_max_right i i'), retry_mono i _ _ hq _ (le_max_left i i')]

/-- C89: for odd n GetRandomQuadraticNonResidue gives every number below n of Jacobi symbol -1 with probability exactly one over the number
of these numbers; so it ends with probability one when there is one. -/
theorem C89_nonresidues (n v : Nat) (hodd : n % 2 = 1) (hn : n < 2 ^ 5000) (hv : v < n) (hj : jacobiSym v n = -1) :
    HasSum (fun l => (Nat.card (spec.ends (GetRandomQuadraticNonResidue n) l v) : ℝ) / 256 ^ l)
      (1 / (Nat.card {w : Nat // w < n ∧ jacobiSym w n = -1} : ℝ)) := by
  have h1 : 1 < n := by
    rcases Nat.lt_or_ge 1 n with h | h
    · exact h
    · have : n = 1 := by omega
      subst this
      rw [jacobiSym.one_right] at hj
      norm_num at hj
  obtain ⟨b2, b5⟩ := bits_range (n := n) (by omega) hn
  have hcard : ∀ l, Nat.card (spec.ends (GetRandomQuadraticNonResidue n) l v) =
      drawnCard ((bitLen (n : Int) + 7) / 8) (2 ^ bitLen (n : Int)) (fun x => minusOne n x) l v := fun l =>
    Nat.card_congr (Equiv.subtypeEquivRight fun t => and_congr_right fun _ => nonResidue_drawn n hodd h1 hn v t)
  simp only [hcard]
  have hW : 2 ^ bitLen (n : Int) * 2 ^ (8 * ((bitLen (n : Int) + 7) / 8) - bitLen (n : Int)) = 256 ^ ((bitLen (n : Int) + 7) / 8) := by
    have : (256 : Nat) = 2 ^ 8 := by norm_num
    rw [this, ← pow_mul, ← pow_add]
    congr 1
    omega
  have hlt := lt_two_pow_bitLen n
  have hgv : ∀ x : Nat, minusOne n x = true ↔ x < n ∧ jacobiSym x n = -1 := fun x => by
    unfold minusOne
    rw [Bool.and_eq_true, decide_eq_true_eq, decide_eq_true_eq]
    constructor
    · exact fun h => ⟨by exact_mod_cast h.1, h.2⟩
    · exact fun h => ⟨by exact_mod_cast h.1, h.2⟩
  have e : Nat.card {x : Fin (2 ^ bitLen (n : Int)) // minusOne n ((x : Nat) : Int) = true} = Nat.card {w : Nat // w < n ∧ jacobiSym w n = -1} :=
    Nat.card_congr
      { toFun := fun x => ⟨x.1.1, (hgv x.1.1).mp x.2⟩
        invFun := fun w => ⟨⟨w.1, w.2.1.trans hlt⟩, (hgv w.1).mpr w.2⟩
        left_inv := fun _ => rfl
        right_inv := fun _ => rfl }
  rw [← e]
  exact drawn_sum (by omega) (by positivity) hW (by omega) ((hgv v).mpr ⟨hv, hj⟩)

/-- C89, non-vacuity: modulo 15 the number 4 is the square of the unit 2, and the byte 0x02 ends the draw with it; the number 7 has symbol
-1, and after a rejected 2 the draw ends with 7. -/
theorem C89_case_squares : (∃ f : Nat, f.Coprime 15 ∧ 4 = f * f % 15) ∧
    [0x02] ∈ spec.ends (GetRandomGeneratorOfTheQuadraticResidue (some (15 : Nat))) 1 (4 : Nat) ∧
    jacobiSym (7 : Nat) 15 = -1 ∧ [0x02, 0x07] ∈ spec.ends (GetRandomQuadraticNonResidue (15 : Nat)) 2 (7 : Nat) := by
  have h7 : jacobiSym (7 : Nat) 15 = -1 := by norm_num
  have h2 : jacobiSym (2 : Nat) 15 = 1 := by norm_num
  refine ⟨⟨2, by decide, by decide⟩, ⟨rfl, 1, by decide⟩, h7, rfl, 2, ?_⟩
  have a : GetRandomPositiveInt (some ((15 : Nat) : Int)) 2 [0x02, 0x07] = some (.ok (some ((2 : Nat) : Int), [0x07])) := by decide
  have b : GetRandomPositiveInt (some ((15 : Nat) : Int)) 2 [0x07] = some (.ok (some ((7 : Nat) : Int), [])) := by decide
  unfold GetRandomQuadraticNonResidue nonResidueLoop
  rw [a]
  simp only
  rw [jacobi_cast 15 (by decide), h2]
  simp only
  rw [if_neg (by decide)]
  unfold nonResidueLoop
  rw [b]
  simp only
  rw [jacobi_cast 15 (by decide), h7]
  simp only
  rw [if_pos trivial]

end Tss.ModProof

namespace Tss.Common
open Tss

/-- C89: GetRandomBytes returns exactly the next bytes of the reader, so every string of that length is drawn from exactly one input. -/
theorem C89_bytes (l : Nat) (hl : 0 < l) (t b r : Bytes) : GetRandomBytes l t = .ok (b, r) ↔ t = b ++ r ∧ b.length = l := by
  unfold GetRandomBytes readFull
  rw [if_neg (by omega), Int.toNat_natCast]
  by_cases h : t.length < l
  · rw [if_pos h]
    constructor
    · intro h'; cases h'
    · rintro ⟨rfl, hb⟩
      rw [List.length_append] at h; omega
  · rw [if_neg h]
    constructor
    · intro h'
      injection h' with h'; injection h' with h1 h2
      subst h1 h2
      exact ⟨(List.take_append_drop _ _).symm, by rw [List.length_take]; omega⟩
    · rintro ⟨rfl, hb⟩
      rw [List.take_left' hb, List.drop_left' hb]

example : GetRandomBytes 2 [1, 2, 3] = .ok ([1, 2], [3]) := by decide

end Tss.Common
