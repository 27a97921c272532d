import Verif.Props.ModProofComplete
import Mathlib.GroupTheory.Perm.Cycle.Type
import Mathlib.NumberTheory.LegendreSymbol.QuadraticReciprocity
import Mathlib.RingTheory.ZMod.UnitsCyclic
import Mathlib.Data.ZMod.Basic
/-! C40: what the modulus proof does and does not establish about N. -/
namespace Tss.ModProof
open Tss Common

/-! ### Counting -/

/-- In a finite commutative group the k-th powers are at most 1/c of the elements when at least c elements have k-th
power 1. -/
theorem card_pow_image {G : Type*} [CommGroup G] [Fintype G] [DecidableEq G] (k c : ℕ)
    (hc : c ≤ (Finset.univ.filter fun g : G => g ^ k = 1).card) :
    c * (Finset.univ.image fun g : G => g ^ k).card ≤ Fintype.card G := by
  have key : ∀ y ∈ (Finset.univ.image fun g : G => g ^ k), c ≤ (Finset.univ.filter fun g : G => g ^ k = y).card := by
    intro y hy
    obtain ⟨x, _, rfl⟩ := Finset.mem_image.mp hy
    refine hc.trans ?_
    refine Finset.card_le_card_of_injOn (fun g => g * x) ?_ ?_
    · intro g hg
      simp only [Finset.coe_filter, Finset.mem_univ, true_and, Set.mem_ofPred_eq] at hg ⊢
      rw [mul_pow, hg, one_mul]
    · intro a _ b _ hab
      exact mul_right_cancel hab
  have := Finset.card_eq_sum_card_image (fun g : G => g ^ k) Finset.univ
  rw [Finset.card_univ] at this
  rw [this, mul_comm]
  exact Finset.card_nsmul_le_sum _ _ _ key

/-- Fourth roots of one. -/
noncomputable def roots4 (n : ℕ) [NeZero n] : Finset (ZMod n)ˣ := Finset.univ.filter fun u => u ^ 4 = 1

theorem roots4_mul (a b : ℕ) [NeZero a] [NeZero b] [NeZero (a * b)] (h : a.Coprime b) :
    (roots4 a).card * (roots4 b).card ≤ (roots4 (a * b)).card := by
  rw [← Finset.card_product]
  let e : (ZMod (a * b))ˣ ≃* (ZMod a)ˣ × (ZMod b)ˣ :=
    (Units.mapEquiv (ZMod.chineseRemainder h).toMulEquiv).trans MulEquiv.prodUnits
  refine Finset.card_le_card_of_injOn (fun p => e.symm p) ?_ ?_
  · intro p hp
    simp only [roots4, Finset.coe_product, Finset.coe_filter, Finset.mem_univ, true_and, Set.mem_prod, Set.mem_ofPred_eq] at hp ⊢
    rw [← map_pow]
    have : p ^ 4 = 1 := Prod.ext hp.1 hp.2
    rw [this, map_one]
  · intro a _ b _ hab
    exact e.symm.injective hab

theorem neg_one_ne_one' {n : ℕ} (h : 2 < n) : (-1 : (ZMod n)ˣ) ≠ 1 := by
  have : Fact (2 < n) := ⟨h⟩
  intro hc
  have := congrArg Units.val hc
  simp only [Units.val_neg, Units.val_one] at this
  exact ZMod.neg_one_ne_one this

theorem roots4_two {n : ℕ} [NeZero n] (h : 2 < n) : 2 ≤ (roots4 n).card := by
  have : ({1, -1} : Finset (ZMod n)ˣ) ⊆ roots4 n := by
    intro u hu
    simp only [Finset.mem_insert, Finset.mem_singleton] at hu
    simp only [roots4, Finset.mem_filter, Finset.mem_univ, true_and]
    rcases hu with rfl | rfl
    · simp
    · exact Even.neg_one_pow ⟨2, rfl⟩
  refine le_trans ?_ (Finset.card_le_card this)
  rw [Finset.card_pair (neg_one_ne_one' h).symm]

theorem roots4_four {p : ℕ} [NeZero p] (hp : p.Prime) (h : p % 4 = 1) : 4 ≤ (roots4 p).card := by
  have := Fact.mk hp
  obtain ⟨r, hr⟩ := ZMod.exists_sq_eq_neg_one_iff.mpr (by omega : p % 4 ≠ 3)
  have hp2 : 2 < p := by have := hp.two_le; omega
  have hr0 : r ≠ 0 := by rintro rfl; simp at hr
  have hu2 : (Units.mk0 r hr0) ^ 2 = -1 := by
    ext; simp [pow_two, ← hr]
  generalize Units.mk0 r hr0 = u at hu2
  have hne := neg_one_ne_one' hp2
  have h1 : (1 : (ZMod p)ˣ) ≠ -1 := hne.symm
  have h2 : (1 : (ZMod p)ˣ) ≠ u := by rintro rfl; simp at hu2; exact h1 hu2
  have h3 : (1 : (ZMod p)ˣ) ≠ -u := by
    intro hc
    have : u = -1 := by rw [hc, neg_neg]
    rw [this] at hu2; simp at hu2; exact h1 hu2
  have h4 : (-1 : (ZMod p)ˣ) ≠ u := by rintro rfl; simp at hu2; exact h1 hu2
  have h5 : (-1 : (ZMod p)ˣ) ≠ -u := by intro hc; exact h2 (neg_injective hc)
  have h6 : u ≠ -u := by
    intro hc
    have : u * (1 : (ZMod p)ˣ) = u * (-1) := by rw [mul_one, mul_neg, mul_one]; exact hc
    exact h1 (mul_left_cancel this)
  have hu4 : u ^ 4 = 1 := by rw [show (4 : ℕ) = 2 * 2 by rfl, pow_mul, hu2]; simp
  have : ({1, -1, u, -u} : Finset (ZMod p)ˣ) ⊆ roots4 p := by
    intro v hv
    simp only [Finset.mem_insert, Finset.mem_singleton] at hv
    simp only [roots4, Finset.mem_filter, Finset.mem_univ, true_and]
    rcases hv with rfl | rfl | rfl | rfl
    · simp
    · exact Even.neg_one_pow ⟨2, rfl⟩
    · exact hu4
    · rw [Even.neg_pow ⟨2, rfl⟩, hu4]
  refine le_trans ?_ (Finset.card_le_card this)
  rw [Finset.card_insert_of_notMem (by simp [h1, h2, h3]), Finset.card_insert_of_notMem (by simp [h4, h5]),
    Finset.card_pair h6]

/-- A modulus the proof is meant to exclude has many fourth roots of one, or shares a factor with its totient. -/
theorem bad_modulus {n : ℕ} [NeZero n] (hodd : n % 2 = 1) (h1 : 1 < n) (hnp : ¬ n.Prime)
    (hbad : ¬ ∃ P Q, Blum P Q ∧ n = P * Q) (hco : n.Coprime n.totient) : 8 ≤ (roots4 n).card := by
  have sq : ∀ r, r.Prime → ∀ m, n = r * m → r.Coprime m := by
    intro r hr m hm
    rw [Nat.Prime.coprime_iff_not_dvd hr]
    intro hd
    obtain ⟨k, rfl⟩ := hd
    have : r ∣ n.totient := by
      rw [hm, Nat.totient_mul_of_prime_of_dvd hr (Dvd.intro _ rfl)]
      exact Dvd.intro _ rfl
    have h2 : r ∣ n := ⟨_, hm⟩
    have := Nat.dvd_gcd h2 this
    rw [hco] at this
    exact hr.one_lt.ne' (Nat.dvd_one.mp this)
  obtain ⟨m, hm⟩ := Nat.minFac_dvd n
  have hp : (Nat.minFac n).Prime := Nat.minFac_prime (by omega)
  generalize Nat.minFac n = p at hm hp
  have hpm := sq p hp m hm
  have hm1 : 1 < m := by
    rcases Nat.lt_or_ge 1 m with g | g
    · exact g
    · interval_cases m
      · omega
      · rw [mul_one] at hm; exact absurd (hm ▸ hp) hnp
  have hodd' : (p * m) % 2 = 1 := hm ▸ hodd
  have po : p % 2 = 1 := by
    rw [Nat.mul_mod] at hodd'
    rcases Nat.mod_two_eq_zero_or_one p with g | g
    · rw [g] at hodd'; simp at hodd'
    · exact g
  have mo : m % 2 = 1 := by
    rw [Nat.mul_mod] at hodd'
    rcases Nat.mod_two_eq_zero_or_one m with g | g
    · rw [g] at hodd'; simp at hodd'
    · exact g
  have p2 : 2 < p := by have := hp.two_le; omega
  have m2 : 2 < m := by omega
  have : NeZero p := ⟨by omega⟩
  have : NeZero m := ⟨by omega⟩
  subst hm
  have hmul := roots4_mul p m hpm
  by_cases hmp : m.Prime
  · have hne : p ≠ m := by
      rintro rfl
      rw [Nat.coprime_self] at hpm; omega
    by_cases g1 : p % 4 = 1
    · have := roots4_four hp g1
      have := roots4_two (n := m) m2
      nlinarith
    by_cases g2 : m % 4 = 1
    · have := roots4_four hmp g2
      have := roots4_two (n := p) p2
      nlinarith
    exact absurd ⟨p, m, ⟨hp, hmp, hne, by omega, by omega⟩, rfl⟩ hbad
  · obtain ⟨k, hk⟩ := Nat.minFac_dvd m
    have hq : (Nat.minFac m).Prime := Nat.minFac_prime (by omega)
    generalize Nat.minFac m = q at hk hq
    have hqk : q.Coprime k := by
      have := sq q hq (p * k) (by rw [hk]; ring)
      exact (Nat.coprime_mul_iff_right.mp this).2
    have hk1 : 1 < k := by
      rcases Nat.lt_or_ge 1 k with g | g
      · exact g
      · interval_cases k
        · omega
        · rw [mul_one] at hk; exact absurd (hk ▸ hq) hmp
    have qo : q % 2 = 1 := by
      rw [hk, Nat.mul_mod] at mo
      rcases Nat.mod_two_eq_zero_or_one q with g | g
      · rw [g] at mo; simp at mo
      · exact g
    have ko : k % 2 = 1 := by
      rw [hk, Nat.mul_mod] at mo
      rcases Nat.mod_two_eq_zero_or_one k with g | g
      · rw [g] at mo; simp at mo
      · exact g
    have : NeZero q := ⟨hq.ne_zero⟩
    have : NeZero k := ⟨by omega⟩
    subst hk
    have hmul2 := roots4_mul q k hqk
    have a1 := roots4_two (n := p) p2
    have a2 := roots4_two (n := q) (by have := hq.two_le; omega)
    have a3 := roots4_two (n := k) (by omega)
    have : 4 ≤ (roots4 (q * k)).card := by nlinarith
    nlinarith

open Classical in
/-- The challenges (among the units) to which a proof for modulus n and non-residue w has any answer. -/
noncomputable def answerable (n : ℕ) (w : Int) : Finset ℕ :=
  (Finset.range n).filter fun y => y.Coprime n ∧ ∃ (x z : Int) (a b : Bool), spec.RootEq n y z ∧ spec.FourthEq n w y x a b

/-- C40 (soundness of one iteration). Let n > 1 be odd, composite and not a product of two distinct primes congruent to 3
modulo 4 that is coprime to its totient. Then for every w that is a unit modulo n, at most half of the unit challenges
have any answer at all: whatever x, z and bits the prover chooses. -/
theorem C40_soundness_half (n : ℕ) (hodd : n % 2 = 1) (h1 : 1 < n) (hnp : ¬ n.Prime)
    (hbad : ¬ ∃ P Q, Blum P Q ∧ n = P * Q ∧ n.Coprime n.totient) (w : Int) (hw : Int.gcd w n = 1) :
    2 * (answerable n w).card ≤ n.totient := by
  classical
  have : NeZero n := ⟨by omega⟩
  obtain ⟨wu, hwu⟩ := exists_unit hw
  -- the answerable challenges as units
  let S : Finset (ZMod n)ˣ := Finset.univ.filter fun u => (∃ g : (ZMod n)ˣ, g ^ n = u) ∧
    ∃ (g : (ZMod n)ˣ) (a b : Bool), g ^ 4 = (-1) ^ a.toNat * wu ^ b.toNat * u
  have hpow : ∀ (k : ℕ), 0 < k → ∀ (x : ZMod n) (u : (ZMod n)ˣ), x ^ k = u → ∃ g : (ZMod n)ˣ, (g : ZMod n) = x := by
    intro k hk x u hx
    have : IsUnit (x ^ k) := hx ▸ u.isUnit
    rw [isUnit_pow_iff (by omega)] at this
    exact this
  obtain ⟨U, hU⟩ : ∃ U : ℕ → (ZMod n)ˣ, ∀ y, y.Coprime n → (U y : ZMod n) = y :=
    ⟨fun y => if h : y.Coprime n then ZMod.unitOfCoprime y h else 1, fun y h => by
      simp only [dif_pos h, ZMod.coe_unitOfCoprime]⟩
  have hSA : (answerable n w).card ≤ S.card := by
    refine Finset.card_le_card_of_injOn U ?_ ?_
    · intro y hy
      simp only [answerable, Finset.coe_filter, Finset.mem_range, Set.mem_ofPred_eq] at hy
      obtain ⟨_, hc, x, z, a, b, hr, hf⟩ := hy
      simp only [S, Finset.coe_filter, Finset.mem_univ, true_and, Set.mem_ofPred_eq]
      refine ⟨?_, ?_⟩
      · unfold spec.RootEq at hr
        rw [Int.toNat_natCast] at hr
        have hr' := (ZMod.intCast_eq_intCast_iff _ _ _).mpr hr
        push_cast at hr'
        rw [← hU y hc] at hr'
        obtain ⟨g, hg⟩ := hpow n (by omega) _ _ hr'
        refine ⟨g, Units.ext ?_⟩
        rw [Units.val_pow_eq_pow_val, hg, hr']
      · unfold spec.FourthEq at hf
        have hf' := (ZMod.intCast_eq_intCast_iff _ _ _).mpr hf
        push_cast at hf'
        have hf'' : ((x : Int) : ZMod n) ^ 4 = (((-1) ^ a.toNat * wu ^ b.toNat * U y : (ZMod n)ˣ) : ZMod n) := by
          rw [hf']; push_cast; rw [hwu, hU y hc]
        obtain ⟨g, hg⟩ := hpow 4 (by omega) _ _ hf''
        refine ⟨g, a, b, Units.ext ?_⟩
        rw [Units.val_pow_eq_pow_val, hg, hf'']
    · intro y hy y' hy' he
      simp only [answerable, Finset.coe_filter, Finset.mem_range, Set.mem_ofPred_eq] at hy hy'
      have := congrArg Units.val he
      rw [hU y hy.2.1, hU y' hy'.2.1] at this
      have := (ZMod.natCast_eq_natCast_iff' _ _ _).mp this
      rwa [Nat.mod_eq_of_lt hy.1, Nat.mod_eq_of_lt hy'.1] at this
  have hcard : Fintype.card (ZMod n)ˣ = n.totient := ZMod.card_units_eq_totient n
  refine le_trans (Nat.mul_le_mul_left 2 hSA) ?_
  rw [← hcard]
  by_cases hco : n.Coprime n.totient
  · have h8 := bad_modulus hodd h1 hnp (fun ⟨P, Q, hb, he⟩ => hbad ⟨P, Q, hb, he, hco⟩) hco
    have hq := card_pow_image (G := (ZMod n)ˣ) 4 8 h8
    -- S is covered by four translates of the fourth powers
    have hcov : S ⊆ (Finset.univ ×ˢ (Finset.univ.image fun g : (ZMod n)ˣ => g ^ 4)).image
        (fun p : (Bool × Bool) × (ZMod n)ˣ => ((-1) ^ p.1.1.toNat * wu ^ p.1.2.toNat)⁻¹ * p.2) := by
      intro u hu
      simp only [S, Finset.mem_filter, Finset.mem_univ, true_and] at hu
      obtain ⟨_, g, a, b, hg⟩ := hu
      rw [Finset.mem_image]
      refine ⟨((a, b), g ^ 4), ?_, ?_⟩
      · simp
      · simp only [hg]; rw [← mul_assoc, inv_mul_cancel, one_mul]
    have := (Finset.card_le_card hcov).trans Finset.card_image_le
    rw [Finset.card_product] at this
    have hbb : (Finset.univ : Finset (Bool × Bool)).card = 4 := by decide
    rw [hbb] at this
    omega
  · -- a prime divisor common to n and the group order
    obtain ⟨r, hr, hrn, hrt⟩ := Nat.Prime.not_coprime_iff_dvd.mp hco
    have := Fact.mk hr
    obtain ⟨g, hg⟩ := exists_prime_orderOf_dvd_card (G := (ZMod n)ˣ) r (by rw [hcard]; exact hrt)
    have hgn : g ^ n = 1 := orderOf_dvd_iff_pow_eq_one.mp (hg ▸ hrn)
    have hg1 : (1 : (ZMod n)ˣ) ≠ g := by rintro rfl; rw [orderOf_one] at hg; exact hr.one_lt.ne hg
    have h2 : 2 ≤ (Finset.univ.filter fun u : (ZMod n)ˣ => u ^ n = 1).card := by
      have : ({1, g} : Finset (ZMod n)ˣ) ⊆ Finset.univ.filter fun u : (ZMod n)ˣ => u ^ n = 1 := by
        intro v hv
        simp only [Finset.mem_insert, Finset.mem_singleton] at hv
        rcases hv with rfl | rfl <;> simp [hgn]
      refine le_trans ?_ (Finset.card_le_card this)
      rw [Finset.card_pair hg1]
    have hq := card_pow_image (G := (ZMod n)ˣ) n 2 h2
    have : S ⊆ Finset.univ.image fun g : (ZMod n)ˣ => g ^ n := by
      intro u hu
      simp only [S, Finset.mem_filter, Finset.mem_univ, true_and] at hu
      obtain ⟨g, hg⟩ := hu.1
      exact Finset.mem_image.mpr ⟨g, Finset.mem_univ _, hg⟩
    have := Finset.card_le_card this
    omega

/-- C40 (soundness, for the verifier). If the verifier accepts under some schedule, every challenge that is a unit is an
answerable one. -/
theorem C40_accepted_answerable (H : Bytes → Bytes) (prime : Int → Bool) (session : Bytes) (n : ℕ) (w a b : Int)
    (xs zs : List Int) (hx : xs.length = 80) (hz : zs.length = 80) (order : List Nat) (ho : spec.Schedule order)
    (hodd : n % 2 = 1) (ys : List Int) (hys : spec.Challenges H session w n ys)
    (hv : Verify H prime session n (some ⟨some w, xs.map some, some a, some b, zs.map some⟩) order = .ok true) :
    ∀ y ∈ ys, Int.gcd y n = 1 → y.toNat ∈ answerable n w := by
  classical
  intro y hy hg
  have hn : (0 : Int) < n := by omega
  have hr := chal_range hn hys hy
  obtain ⟨-, -, -, -, -, -, -, -, h⟩ := (C40_verify_iff H prime session n w a b xs zs hx hz order ho (by omega) ys hys).mp hv
  obtain ⟨i, hi, rfl⟩ := List.getElem_of_mem hy
  have := h i (by have := hys.1; omega)
  rw [List.getD_eq_getElem _ _ hi] at this
  have hyn : ((ys[i].toNat : ℕ) : Int) = ys[i] := Int.toNat_of_nonneg hr.1
  unfold answerable
  rw [Finset.mem_filter, Finset.mem_range]
  refine ⟨by omega, ?_, ?_⟩
  · unfold Int.gcd at hg
    rw [Int.natAbs_natCast] at hg
    rw [show ys[i].toNat = ys[i].natAbs by omega]
    exact hg
  · exact ⟨_, _, _, _, by rw [hyn]; exact this.1, by rw [hyn]; exact this.2⟩

/-! ### The missing unit check -/

/-- A fourth root modulo a prime congruent to 3 modulo 4. -/
theorem fourth_root_prime {q : ℕ} (hq : q.Prime) (h3 : q % 4 = 3) {c : Int} (hc : jacobiSym c q = 1) :
    ∃ x : Int, x ^ 4 ≡ c [ZMOD q] := by
  have hm := pow_half hq hc
  refine ⟨c ^ (((q / 2 + 1) / 2) * ((q / 2 + 1) / 2) % (4 * (q / 2))), (ZMod.intCast_eq_intCast_iff _ _ _).mp ?_⟩
  push_cast
  exact fourth_root_pow _ _ _ hm (by omega)

/-- C40 (a deviation from CGGMP, Fig. 16). The verifier compares the Jacobi symbol of W with 1 only, so it accepts W with
symbol 0, i.e. sharing a factor with N. Then a single prime factor q of N congruent to 3 modulo 4 suffices: with
N = qM, M any odd number above 1 coprime to q, N coprime to its totient, and W = M, there is an accepted proof whenever
all challenges are units — whatever the number and residues of the prime factors of M. -/
theorem C40_forgery (q M : ℕ) (hq : q.Prime) (h3 : q % 4 = 3) (hM1 : 1 < M) (hMo : M % 2 = 1) (hqM : q.Coprime M)
    (hco : (q * M).Coprime (q * M).totient) (H : Bytes → Bytes) (prime : Int → Bool)
    (hprime : prime ((q * M : ℕ) : Int) = false) (session : Bytes) (ys : List Int)
    (hys : spec.Challenges H session M ((q * M : ℕ) : Int) ys) (hu : ∀ y ∈ ys, Int.gcd y ((q * M : ℕ) : Int) = 1) :
    ∃ pf, ∀ order, spec.Schedule order → Verify H prime session ((q * M : ℕ) : Int) (some pf) order = .ok true := by
  have hq2 := hq.two_le
  have hN1 : 1 < q * M := by nlinarith
  have hMN : M < q * M := by nlinarith
  have hN0 : (0 : Int) < ((q * M : ℕ) : Int) := by omega
  have : NeZero q := ⟨hq.ne_zero⟩
  have hgcd : Int.gcd ((q * M : ℕ) : Int) ((q * M).totient : Int) = 1 := by
    unfold Int.gcd; rw [Int.natAbs_natCast, Int.natAbs_natCast]; exact hco
  have htot : ((q * M).totient : Int) ≠ 0 := by have := Nat.totient_pos.mpr (by omega : 0 < q * M); omega
  obtain ⟨v, hv⟩ := Option.isSome_iff_exists.mp (modInverse_isSome.mpr hgcd)
  obtain ⟨hv0, _, hv2⟩ := modInverse_spec htot hv
  have hans : ∀ y : Int, Int.gcd y ((q * M : ℕ) : Int) = 1 → ∃ (x z : Int) (a : Bool),
      (0 < x ∧ x < ((q * M : ℕ) : Int)) ∧ (0 < z ∧ z < ((q * M : ℕ) : Int)) ∧
      spec.RootEq ((q * M : ℕ) : Int) y z ∧ spec.FourthEq ((q * M : ℕ) : Int) M y x a true := by
    intro y hy
    obtain ⟨gy1, gy2⟩ := (gcd_parts (P := q) (Q := M)).mp hy
    have hMy : jacobiSym ((M : Int) * y) q ≠ 0 := by
      rw [gcd_symbol hq]
      unfold Int.gcd at gy1 ⊢
      rw [Int.natAbs_mul]
      simp only [Int.natAbs_natCast] at gy1 ⊢
      exact Nat.Coprime.mul_left hqM.symm gy1
    obtain ⟨a, ha⟩ : ∃ a : Bool, jacobiSym ((-1) ^ a.toNat * (M : Int) * y) q = 1 := by
      rcases symbol_cases hMy with g | g
      · exact ⟨false, by simpa using g⟩
      · refine ⟨true, ?_⟩
        rw [mul_assoc, jacobiSym.mul_left, g]
        simp [jacobi_neg_one h3]
    obtain ⟨x0, hx0⟩ := fourth_root_prime hq h3 ha
    -- Chinese remainder: x0 modulo q, 0 modulo M
    obtain ⟨s, hs⟩ : ∃ s : Int, s * M ≡ 1 [ZMOD q] := by
      have hg : Int.gcd (M : Int) q = 1 := by simpa [Int.gcd] using hqM.symm
      obtain ⟨s, hs⟩ := Option.isSome_iff_exists.mp (modInverse_isSome.mpr hg)
      have := (modInverse_spec (by omega) hs).2.2
      exact ⟨s, by rw [mul_comm]; exact this⟩
    have c1 : (x0 * (s * M)) ^ 4 ≡ (-1) ^ a.toNat * (M : Int) * y [ZMOD q] := by
      have := ((Int.ModEq.refl x0).mul hs).pow 4
      rw [mul_one] at this
      exact this.trans hx0
    have c2 : (x0 * (s * M)) ^ 4 ≡ (-1) ^ a.toNat * (M : Int) * y [ZMOD M] := by
      refine Int.ModEq.trans (b := 0) ?_ ?_
      · exact Int.modEq_zero_iff_dvd.mpr (dvd_pow (Dvd.intro_left (x0 * s) (by ring)) (by decide))
      · exact (Int.modEq_zero_iff_dvd.mpr (Dvd.intro_left ((-1) ^ a.toNat * y) (by ring))).symm
    have c3 : (x0 * (s * M)) ^ 4 ≡ (-1) ^ a.toNat * (M : Int) * y [ZMOD ((q * M : ℕ) : Int)] := by
      push_cast
      exact (Int.modEq_and_modEq_iff_modEq_mul (by simpa using hqM)).mp ⟨c1, c2⟩
    have hroot : (y ^ v.toNat) ^ (q * M) ≡ y [ZMOD ((q * M : ℕ) : Int)] := nth_root hv0 hv2 hy
    refine ⟨x0 * (s * M) % ((q * M : ℕ) : Int), y ^ v.toNat % ((q * M : ℕ) : Int), a, ⟨?_, Int.emod_lt_of_pos _ hN0⟩,
      ⟨?_, Int.emod_lt_of_pos _ hN0⟩, ?_, ?_⟩
    · rcases (Int.emod_nonneg (x0 * (s * M)) (by omega : ((q * M : ℕ) : Int) ≠ 0)).lt_or_eq with g | g
      · exact g
      · exfalso
        have g0 : x0 * (s * M) ≡ 0 [ZMOD ((q * M : ℕ) : Int)] := by unfold Int.ModEq; rw [← g]; simp
        have g1 : x0 * (s * M) ≡ 0 [ZMOD (q : Int)] :=
          g0.of_dvd (Int.natCast_dvd_natCast.mpr (Dvd.intro M rfl))
        have g2 := (g1.symm.pow 4).trans c1
        rw [zero_pow (by decide)] at g2
        rw [jacobiSym.mod_left, ← g2, ← jacobiSym.mod_left, jacobiSym.zero_left hq.one_lt] at ha
        simp at ha
    · rcases (Int.emod_nonneg (y ^ v.toNat) (by omega : ((q * M : ℕ) : Int) ≠ 0)).lt_or_eq with g | g
      · exact g
      · exfalso
        have g0 : y ^ v.toNat ≡ 0 [ZMOD ((q * M : ℕ) : Int)] := by unfold Int.ModEq; rw [← g]; simp
        have g1 := (g0.symm.pow (q * M)).trans hroot
        rw [zero_pow (by omega)] at g1
        have hd := Int.dvd_coe_gcd ((Int.modEq_zero_iff_dvd).mp g1.symm) (Int.dvd_refl ((q * M : ℕ) : Int))
        rw [hy] at hd
        have := Int.le_of_dvd (by decide) hd
        omega
    · unfold spec.RootEq
      rw [Int.toNat_natCast]
      exact ((Int.mod_modEq _ _).pow _).trans hroot
    · unfold spec.FourthEq
      simpa using ((Int.mod_modEq _ _).pow 4).trans c3
  choose! fx fz fa hf using hans
  have hl := hys.1
  refine ⟨⟨some M, (ys.map fx).map some, some (packBits (ys.map fa) : Nat), some (packBits (List.replicate 80 true) : Nat),
    (ys.map fz).map some⟩, ?_⟩
  intro order ho
  have hNodd : ((q * M : ℕ) : Int) % 2 = 1 := by
    have : (q * M) % 2 = 1 := by rw [Nat.mul_mod, hMo, show q % 2 = 1 by omega]
    omega
  refine (C40_verify_iff H prime session _ M _ _ (ys.map fx) (ys.map fz) (by simp [hl]) (by simp [hl]) order ho hNodd
    ys hys).mpr ⟨by omega, by omega, ?_, ?_, ?_, ?_, ?_, hprime, ?_⟩
  · rw [Int.toNat_natCast]
    have : NeZero (q * M) := ⟨by omega⟩
    have : jacobiSym (M : Int) (q * M) = 0 := by
      rw [jacobiSym.eq_zero_iff_not_coprime]
      intro hc
      have hd := Int.dvd_coe_gcd (Int.dvd_refl (M : Int)) (Int.natCast_dvd_natCast.mpr (Dvd.intro_left q rfl : M ∣ q * M))
      rw [hc] at hd
      have := Int.le_of_dvd (by decide) hd
      omega
    rw [this]; decide
  · intro z hz
    obtain ⟨y, hy, rfl⟩ := List.mem_map.mp hz
    exact (hf y (hu y hy)).2.1
  · intro x hx
    obtain ⟨y, hy, rfl⟩ := List.mem_map.mp hx
    exact (hf y (hu y hy)).1
  · rw [← bits81_iff, packBits_bitLen]; simp [hl, Iterations]
  · rw [← bits81_iff, packBits_bitLen]; simp [Iterations]
  · intro i hi
    have hy : ys.getD i 0 ∈ ys := by rw [List.getD_eq_getElem _ _ (by omega)]; exact List.getElem_mem _
    have := hf _ (hu _ hy)
    rw [bit_nat, bit_nat, packBits_testBit _ _ (by simp [hl]; omega), packBits_testBit _ _ (by rw [List.length_replicate]; exact hi)]
    have g1 : (ys.map fz).getD i 0 = fz (ys.getD i 0) := by
      rw [List.getD_eq_getElem _ _ (by simp; omega), List.getD_eq_getElem _ _ (by omega)]; simp
    have g2 : (ys.map fx).getD i 0 = fx (ys.getD i 0) := by
      rw [List.getD_eq_getElem _ _ (by simp; omega), List.getD_eq_getElem _ _ (by omega)]; simp
    have g3 : (ys.map fa).getD i false = fa (ys.getD i 0) := by
      rw [List.getD_eq_getElem _ _ (by simp; omega), List.getD_eq_getElem _ _ (by omega)]; simp
    have g4 : (List.replicate 80 true).getD i false = true := by
      rw [List.getD_eq_getElem _ _ (by rw [List.length_replicate]; exact hi), List.getElem_replicate]
    rw [g1, g2, g3, g4]
    exact ⟨this.2.2.1, this.2.2.2⟩

/-- The hypotheses of the forgery are met by moduli that are not Blum integers: N = 7·85 = 5·7·17. -/
example : ∃ pf, ∀ order, spec.Schedule order →
    Verify (fun _ => [1]) (fun _ => false) [] 595 (some pf) order = .ok true := by
  have hc : spec.Challenges (fun _ => [1]) [] (85 : ℕ) ((7 * 85 : ℕ) : Int) (List.replicate 80 1) := by
    refine ⟨by simp, ?_⟩
    intro i hi
    rw [List.getD_eq_getElem _ _ (by rw [List.length_replicate]; exact hi), List.getElem_replicate]
    rfl
  exact C40_forgery 7 85 (by norm_num) rfl (by decide) rfl (by decide) (by decide +kernel) (fun _ => [1]) (fun _ => false) rfl []
    (List.replicate 80 1) hc (fun y hy => by rw [List.eq_of_mem_replicate hy]; decide)

/-- And by the soundness theorem: 595 is odd, composite, not a product of two Blum primes. -/
example (w : Int) (hw : Int.gcd w (595 : ℕ) = 1) : 2 * (answerable 595 w).card ≤ Nat.totient 595 := by
  refine C40_soundness_half 595 rfl (by decide) (by norm_num) ?_ w hw
  rintro ⟨P, Q, hb, he, -⟩
  have h5 : 5 ∣ P * Q := he ▸ (by decide)
  rcases (Nat.Prime.dvd_mul (by norm_num)).mp h5 with h | h
  · have := (Nat.prime_dvd_prime_iff_eq (by norm_num) hb.hP).mp h
    have := hb.p3; omega
  · have := (Nat.prime_dvd_prime_iff_eq (by norm_num) hb.hQ).mp h
    have := hb.q3; omega

end Tss.ModProof
