import Verif.Props.ModProofSound
import Mathlib.Data.ZMod.Units
import Mathlib.Data.Fintype.Pi
/-
C109: the proof of a good modulus tells nothing about the prime factors: for random challenges the honest transcripts are distributed
exactly as transcripts that anybody can make up from the modulus alone.
-/
namespace Tss.ModProof
open Tss Common

variable {P Q : ℕ}

namespace spec

/-- What is seen of one iteration: the challenge y, the roots x and z, and the two bits. -/
structure Round (n : ℕ) where
  y : ZMod n
  x : ZMod n
  z : ZMod n
  a : Bool
  b : Bool

/-- What the prover with primes P and Q shows for the number w and the challenge y. -/
def shown (P Q : ℕ) (w y : (ZMod (P * Q))ˣ) : Option (Round (P * Q)) :=
  match item ((P * Q : ℕ) : Int) P Q ((w : ZMod (P * Q)).val : ℤ) (expo P Q) (modInverse ((P * Q : ℕ) : Int) (phi P Q))
      ((y : ZMod (P * Q)).val : ℤ) with
  | .ok ⟨some x, some z, a, b⟩ => some ⟨y, x, z, a, b⟩
  | _ => none

/-- The root that somebody without the primes makes up: ±d^(−b)·g⁴. -/
def root {n : ℕ} (d g : (ZMod n)ˣ) (a b : Bool) : (ZMod n)ˣ := (if a then -1 else 1) * (if b then d⁻¹ else 1) * g ^ 4

/-- An iteration made up without the primes, for w = d^n: the challenge is computed from the answers. -/
def madeUp {n : ℕ} (d : (ZMod n)ˣ) (g : (ZMod n)ˣ × Bool × Bool) : Round n where
  y := (root d g.1 g.2.1 g.2.2 ^ n : (ZMod n)ˣ)
  x := (g.1 ^ n : (ZMod n)ˣ)
  z := root d g.1 g.2.1 g.2.2
  a := g.2.1
  b := g.2.2

end spec
open spec

/-- The symbol of a unit. -/
def sym {n : ℕ} (p : ℕ) (u : (ZMod n)ˣ) : ℤ := jacobiSym ((u : ZMod n).val : ℤ) p

theorem sym_of_cast {n p : ℕ} [NeZero n] (hd : p ∣ n) (u : (ZMod n)ˣ) (c : ℤ) (h : (u : ZMod n) = c) : sym p u = jacobiSym c p := by
  unfold sym
  have h1 : (((u : ZMod n).val : ℤ)) ≡ c [ZMOD n] := by
    rw [← ZMod.intCast_eq_intCast_iff]
    push_cast
    rw [ZMod.natCast_zmod_val, h]
  rw [jacobiSym.mod_left, jacobiSym.mod_left c]
  congr 1
  exact h1.of_dvd (Int.natCast_dvd_natCast.mpr hd)

theorem sym_mul {n p : ℕ} [NeZero n] (hd : p ∣ n) (u v : (ZMod n)ˣ) : sym p (u * v) = sym p u * sym p v := by
  rw [sym_of_cast hd (u * v) (((u : ZMod n).val : ℤ) * ((v : ZMod n).val : ℤ)) (by push_cast; simp), jacobiSym.mul_left]
  rfl

theorem sym_one {n p : ℕ} [NeZero n] (hd : p ∣ n) : sym p (1 : (ZMod n)ˣ) = 1 := by
  rw [sym_of_cast hd 1 1 (by simp), jacobiSym.one_left]

theorem sym_pow {n p : ℕ} [NeZero n] (hd : p ∣ n) (u : (ZMod n)ˣ) (k : ℕ) : sym p (u ^ k) = sym p u ^ k := by
  induction k with
  | zero => simp [sym_one hd]
  | succ k ih => rw [pow_succ, sym_mul hd, ih, pow_succ]

theorem sym_neg_one {n p : ℕ} [NeZero n] (hd : p ∣ n) (h3 : p % 4 = 3) : sym p (-1 : (ZMod n)ˣ) = -1 := by
  rw [sym_of_cast hd (-1) (-1) (by simp), jacobi_neg_one h3]

theorem sym_sq {n p : ℕ} [NeZero n] (hd : p ∣ n) (u : (ZMod n)ˣ) : sym p u * sym p u = 1 := by
  have h0 : sym p u ≠ 0 := by
    unfold sym
    have hp : NeZero p := ⟨by rintro rfl; exact NeZero.ne n (Nat.eq_zero_of_zero_dvd hd)⟩
    rw [Ne, jacobiSym.eq_zero_iff_not_coprime, not_not]
    have h1 : Nat.Coprime (u : ZMod n).val n := ZMod.val_coe_unit_coprime u
    have h2 : Nat.Coprime (u : ZMod n).val p := h1.of_dvd_right hd
    rw [Int.gcd_natCast_natCast]; exact h2
  rcases symbol_cases (y := ((u : ZMod n).val : ℤ)) (p := p) h0 with h | h <;> (unfold sym; rw [h]; norm_num)

theorem sym_square {n p : ℕ} [NeZero n] (hd : p ∣ n) {u : (ZMod n)ˣ} (hu : IsSquare u) : sym p u = 1 := by
  obtain ⟨v, rfl⟩ := hu
  rw [sym_mul hd, sym_sq hd]

theorem sym_cases {n p : ℕ} [NeZero n] (hd : p ∣ n) (u : (ZMod n)ˣ) : sym p u = 1 ∨ sym p u = -1 := by
  have h := sym_sq hd u
  have h1 : (sym p u - 1) * (sym p u + 1) = 0 := by linarith
  rcases mul_eq_zero.mp h1 with h2 | h2
  · left; omega
  · right; omega

/-- The prover's exponent takes fourth roots of units with both symbols 1. -/
theorem Blum.fourth_unit (h : Blum P Q) [NeZero (P * Q)] (u : (ZMod (P * Q))ˣ) (h1 : sym P u = 1) (h2 : sym Q u = 1) :
    (u ^ (expo (P : Int) Q).toNat) ^ 4 = u := by
  have h4 := h.fourth (y := ((u : ZMod (P * Q)).val : ℤ)) h1 h2
  rw [← ZMod.intCast_eq_intCast_iff] at h4
  simp only [Int.cast_pow, Int.cast_natCast, ZMod.natCast_zmod_val] at h4
  ext
  rw [Units.val_pow_eq_pow_val, Units.val_pow_eq_pow_val]
  exact h4

/-- The exponent inverse to n in the group of units. -/
theorem Blum.inverse (h : Blum P Q) [NeZero (P * Q)] (hg : Int.gcd ((P * Q : ℕ) : Int) (phi P Q) = 1) :
    ∃ v : ℤ, 0 ≤ v ∧ modInverse ((P * Q : ℕ) : Int) (phi P Q) = some v ∧
      ∀ u : (ZMod (P * Q))ˣ, (u ^ v.toNat) ^ (P * Q) = u := by
  obtain ⟨v, hv⟩ := Option.isSome_iff_exists.mp (modInverse_isSome.mpr hg)
  have hphi : phi (P : Int) Q ≠ 0 := by rw [h.phi_eq]; have := h.m_pos; omega
  obtain ⟨hv0, _, hv2⟩ := modInverse_spec hphi hv
  refine ⟨v, hv0, hv, fun u => ?_⟩
  rw [← pow_mul]
  have h1 : v.toNat * (P * Q) ≡ 1 [MOD Nat.totient (P * Q)] := by
    rw [← Int.natCast_modEq_iff]
    rw [Nat.cast_mul, Int.toNat_of_nonneg hv0, h.totient, mul_comm]
    exact hv2
  have h2 : u ^ Nat.totient (P * Q) = 1 := ZMod.pow_totient u
  rw [pow_eq_pow_iff_modEq.mpr (h1.of_dvd (orderOf_dvd_of_pow_eq_one h2)), pow_one]

theorem Blum.odd_n (h : Blum P Q) : Odd (P * Q) := by
  have := h.odd
  rw [Nat.odd_iff]; omega

/-- The value of a twist. -/
theorem twist_cast {n : ℕ} [NeZero n] (w y : (ZMod n)ˣ) (a b : Bool) :
    ((twist (n : ℤ) ((w : ZMod n).val : ℤ) ((y : ZMod n).val : ℤ) a b : ℤ) : ZMod n) =
      ((if a then -1 else 1) * (if b then w else 1) * y : (ZMod n)ˣ) := by
  have h := twist_modEq (n : ℤ) ((w : ZMod n).val : ℤ) ((y : ZMod n).val : ℤ) a b
  rw [← ZMod.intCast_eq_intCast_iff] at h
  rw [h]
  cases a <;> cases b <;> simp

/-- Two symbols of a twist determine the bits. -/
theorem Blum.bits (h : Blum P Q) [NeZero (P * Q)] {w : (ZMod (P * Q))ˣ} (hw : sym (P * Q) w = -1) (a b a' b' : Bool) (y : (ZMod (P * Q))ˣ)
    (h1 : sym P ((if a then -1 else 1) * (if b then w else 1) * y) = 1) (h2 : sym Q ((if a then -1 else 1) * (if b then w else 1) * y) = 1)
    (h3 : sym P ((if a' then -1 else 1) * (if b' then w else 1) * y) = 1) (h4 : sym Q ((if a' then -1 else 1) * (if b' then w else 1) * y) = 1) :
    a = a' ∧ b = b' := by
  have dP : P ∣ P * Q := Dvd.intro _ rfl
  have dQ : Q ∣ P * Q := Dvd.intro_left _ rfl
  have : NeZero P := ⟨h.hP.ne_zero⟩
  have : NeZero Q := ⟨h.hQ.ne_zero⟩
  have hw' : sym P w * sym Q w = -1 := by
    unfold sym at hw ⊢
    rwa [jacobiSym.mul_right] at hw
  have e : ∀ (p : ℕ), p ∣ P * Q → p % 4 = 3 → ∀ a b : Bool, sym p ((if a then -1 else 1) * (if b then w else 1) * y) =
      (if a then -1 else 1) * (if b then sym p w else 1) * sym p y := by
    intro p hd h3 a b
    rw [sym_mul hd, sym_mul hd]
    congr 2
    · cases a <;> simp [sym_one hd, sym_neg_one hd h3]
    · cases b <;> simp [sym_one hd]
  rw [e P dP h.p3] at h1 h3
  rw [e Q dQ h.q3] at h2 h4
  rcases sym_cases dP w with w1 | w1 <;> rcases sym_cases dQ w with w2 | w2 <;> rcases sym_cases dP y with y1 | y1 <;>
    rcases sym_cases dQ y with y2 | y2 <;> rw [w1, w2] at hw' <;> rw [w1, y1] at h1 h3 <;> rw [w2, y2] at h2 h4 <;>
    revert h1 h2 h3 h4 hw' <;> cases a <;> cases b <;> cases a' <;> cases b' <;> norm_num

/-- The symbols of a unit and the twist found by the prover. -/
theorem Blum.pick_unit (h : Blum P Q) [NeZero (P * Q)] {w : (ZMod (P * Q))ˣ} (hw : sym (P * Q) w = -1) (y : (ZMod (P * Q))ˣ) :
    ∃ a b, pick ((P * Q : ℕ) : Int) P Q ((w : ZMod (P * Q)).val : ℤ) ((y : ZMod (P * Q)).val : ℤ) 4 0 = .ok (some (a, b)) ∧
      sym P ((if a then -1 else 1) * (if b then w else 1) * y) = 1 ∧ sym Q ((if a then -1 else 1) * (if b then w else 1) * y) = 1 := by
  have dP : P ∣ P * Q := Dvd.intro _ rfl
  have dQ : Q ∣ P * Q := Dvd.intro_left _ rfl
  have h3 := h.p3
  have h3' := h.q3
  have hy : Int.gcd ((y : ZMod (P * Q)).val : ℤ) ((P * Q : ℕ) : Int) = 1 := by
    rw [Int.gcd_natCast_natCast]; exact ZMod.val_coe_unit_coprime y
  obtain ⟨gy1, gy2⟩ := gcd_parts.mp hy
  rcases pick_spec (n := ((P * Q : ℕ) : Int)) (w := ((w : ZMod (P * Q)).val : ℤ)) (y := ((y : ZMod (P * Q)).val : ℤ)) (P := P) (Q := Q)
    (by omega) (by omega) with ⟨a, b, hpk, j1, j2⟩ | ⟨_, hno⟩
  · refine ⟨a, b, hpk, ?_, ?_⟩
    · rw [sym_of_cast dP _ _ (twist_cast w y a b).symm]; exact j1
    · rw [sym_of_cast dQ _ _ (twist_cast w y a b).symm]; exact j2
  · obtain ⟨a, b, hab⟩ := h.exists_twist hw gy1 gy2
    exact absurd hab (hno a b)

/-- What the prover shows for a unit. -/
theorem Blum.shown_eq (h : Blum P Q) [NeZero (P * Q)] {v : ℤ} (hv0 : 0 ≤ v) (hv : modInverse ((P * Q : ℕ) : Int) (phi P Q) = some v)
    {w : (ZMod (P * Q))ˣ} (y : (ZMod (P * Q))ˣ) (a b : Bool)
    (hp : pick ((P * Q : ℕ) : Int) P Q ((w : ZMod (P * Q)).val : ℤ) ((y : ZMod (P * Q)).val : ℤ) 4 0 = .ok (some (a, b))) :
    shown P Q w y = some ⟨y, ((((if a then -1 else 1) * (if b then w else 1) * y) ^ (expo (P : Int) Q).toNat : (ZMod (P * Q))ˣ) : ZMod (P * Q)),
      ((y ^ v.toNat : (ZMod (P * Q))ˣ) : ZMod (P * Q)), a, b⟩ := by
  have hN0 : (0 : Int) < ((P * Q : ℕ) : Int) := by have := h.one_lt; omega
  have hN1 := h.one_lt
  have hexpo : 0 ≤ expo (P : Int) Q := by rw [h.expo_eq]; omega
  unfold shown item
  rw [hp]
  simp only [hv]
  unfold bigExp
  rw [if_neg (by omega), if_neg (by omega), if_neg (by omega), if_neg (by omega)]
  simp only [Option.some.injEq, Round.mk.injEq, true_and, and_true]
  have hm : ∀ c : ℤ, ((c % ((P * Q : ℕ) : Int) : ℤ) : ZMod (P * Q)) = (c : ZMod (P * Q)) := fun c => by
    rw [ZMod.intCast_eq_intCast_iff]; exact Int.mod_modEq _ _
  constructor
  · rw [hm, Int.cast_pow, twist_cast, ← Units.val_pow_eq_pow_val]
  · rw [hm, Int.cast_pow, Int.cast_natCast, ZMod.natCast_zmod_val, ← Units.val_pow_eq_pow_val]

theorem root_pow {n : ℕ} (hodd : Odd n) (d g : (ZMod n)ˣ) (a b : Bool) :
    root d g a b ^ n = (if a then -1 else 1) * (if b then (d ^ n)⁻¹ else 1) * (g ^ n) ^ 4 := by
  unfold root
  rw [mul_pow, mul_pow, ← pow_mul g, mul_comm 4 n, pow_mul]
  congr 2
  · cases a
    · exact one_pow n
    · exact hodd.neg_one_pow
  · cases b
    · exact one_pow n
    · exact inv_pow d n

theorem pow_inj {G : Type*} [CommGroup G] {n v : ℕ} (hinv : ∀ u : G, (u ^ v) ^ n = u) {u u' : G} (h : u ^ n = u' ^ n) : u = u' := by
  rw [← hinv u, ← hinv u', ← pow_mul, ← pow_mul, mul_comm, pow_mul, pow_mul, h]

/-- For a square g, the prover shows for the made-up challenge exactly what was made up. -/
theorem Blum.shown_madeUp (h : Blum P Q) [NeZero (P * Q)] (hg : Int.gcd ((P * Q : ℕ) : Int) (phi P Q) = 1)
    {d : (ZMod (P * Q))ˣ} (hd : sym (P * Q) d = -1) {g : (ZMod (P * Q))ˣ} (hgs : IsSquare g) (a b : Bool) :
    shown P Q (d ^ (P * Q)) (root d g a b ^ (P * Q)) = some (madeUp d (g, a, b)) := by
  have dP : P ∣ P * Q := Dvd.intro _ rfl
  have dQ : Q ∣ P * Q := Dvd.intro_left _ rfl
  obtain ⟨v, hv0, hv, hinv⟩ := h.inverse hg
  have hodd := h.odd_n
  have hw : sym (P * Q) (d ^ (P * Q)) = -1 := by rw [sym_pow dvd_rfl, hd, hodd.neg_one_pow]
  obtain ⟨a', b', hpk, s1, s2⟩ := h.pick_unit hw (root d g a b ^ (P * Q))
  have hx : IsSquare (g ^ (P * Q)) := hgs.pow _
  have tw : (if a then (-1 : (ZMod (P * Q))ˣ) else 1) * (if b then d ^ (P * Q) else 1) * root d g a b ^ (P * Q) = (g ^ (P * Q)) ^ 4 := by
    rw [root_pow hodd]
    cases a <;> cases b <;> simp
  have t1 : sym P ((if a then (-1 : (ZMod (P * Q))ˣ) else 1) * (if b then d ^ (P * Q) else 1) * root d g a b ^ (P * Q)) = 1 := by
    rw [tw]; exact sym_square dP (hx.pow _)
  have t2 : sym Q ((if a then (-1 : (ZMod (P * Q))ˣ) else 1) * (if b then d ^ (P * Q) else 1) * root d g a b ^ (P * Q)) = 1 := by
    rw [tw]; exact sym_square dQ (hx.pow _)
  obtain ⟨rfl, rfl⟩ := h.bits hw a' b' a b _ s1 s2 t1 t2
  rw [h.shown_eq hv0 hv _ _ _ hpk, tw]
  unfold madeUp
  simp only [Option.some.injEq, Round.mk.injEq, true_and, and_true]
  constructor
  · rw [pow_right_comm, h.fourth_unit _ (sym_square dP hx) (sym_square dQ hx)]
  · rw [pow_right_comm, hinv]

/-- Every challenge is made up from exactly one square and two bits: existence. -/
theorem Blum.exists_madeUp (h : Blum P Q) [NeZero (P * Q)] (hg : Int.gcd ((P * Q : ℕ) : Int) (phi P Q) = 1)
    {d : (ZMod (P * Q))ˣ} (hd : sym (P * Q) d = -1) (y : (ZMod (P * Q))ˣ) :
    ∃ g a b, IsSquare g ∧ y = root d g a b ^ (P * Q) := by
  obtain ⟨v, hv0, hv, hinv⟩ := h.inverse hg
  have hodd := h.odd_n
  have hw : sym (P * Q) (d ^ (P * Q)) = -1 := by rw [sym_pow dvd_rfl, hd, hodd.neg_one_pow]
  obtain ⟨a, b, -, s1, s2⟩ := h.pick_unit hw y
  have h4 := h.fourth_unit _ s1 s2
  set u := (if a then (-1 : (ZMod (P * Q))ˣ) else 1) * (if b then d ^ (P * Q) else 1) * y with hu
  set s := u ^ (expo (P : Int) Q).toNat with hs
  have hsq : IsSquare s := by
    rw [hs, ← h4]
    have : IsSquare (s ^ 4) := ⟨s ^ 2, by rw [← pow_add]⟩
    exact this.pow _
  refine ⟨s ^ v.toNat, a, b, hsq.pow _, ?_⟩
  have e : root d (s ^ v.toNat) a b ^ (P * Q) = (if a then (-1 : (ZMod (P * Q))ˣ) else 1) * (if b then (d ^ (P * Q))⁻¹ else 1) * u := by
    rw [root_pow hodd, hinv, h4]
  rw [e, hu]
  cases a <;> cases b <;> simp

theorem madeUp_inj {n v : ℕ} (hinv : ∀ u : (ZMod n)ˣ, (u ^ v) ^ n = u) {d : (ZMod n)ˣ} {g g' : (ZMod n)ˣ × Bool × Bool}
    (h : madeUp d g = madeUp d g') : g = g' := by
  obtain ⟨g, a, b⟩ := g
  obtain ⟨g', a', b'⟩ := g'
  unfold madeUp at h
  simp only [Round.mk.injEq] at h
  obtain ⟨-, hx, -, rfl, rfl⟩ := h
  rw [pow_inj hinv (Units.ext hx)]

open Classical in
/-- C109: for N = PQ with distinct primes that are 3 modulo 4 and N prime to (P−1)(Q−1), any number m of iterations and any set T of
transcripts: the pairs of a number w of Jacobi symbol −1 (what the prover draws) and m units as challenges for which the transcript is in T
are exactly as many as the choices of a d of symbol −1 and of m squares and pairs of bits whose made-up transcript is in T.  Making up
uses N only. -/
theorem C109_modulus_transcripts (h : Blum P Q) (hg : Int.gcd ((P * Q : ℕ) : Int) (phi P Q) = 1) [NeZero (P * Q)] (m : ℕ)
    (T : Set (ZMod (P * Q) × (Fin m → Round (P * Q)))) :
    (Finset.univ.filter fun c : (ZMod (P * Q))ˣ × (Fin m → (ZMod (P * Q))ˣ) => jacobiSym ((c.1 : ZMod (P * Q)).val : ℤ) (P * Q) = -1 ∧
      ∃ r, (∀ j, shown P Q c.1 (c.2 j) = some (r j)) ∧ ((c.1 : ZMod (P * Q)), r) ∈ T).card =
    (Finset.univ.filter fun c : (ZMod (P * Q))ˣ × (Fin m → (ZMod (P * Q))ˣ × Bool × Bool) =>
      jacobiSym ((c.1 : ZMod (P * Q)).val : ℤ) (P * Q) = -1 ∧ (∀ j, IsSquare (c.2 j).1) ∧
      (((c.1 : ZMod (P * Q)) ^ (P * Q)), fun j => madeUp c.1 (c.2 j)) ∈ T).card := by
  obtain ⟨v, hv0, hv, hinv⟩ := h.inverse hg
  have hodd := h.odd_n
  symm
  refine Finset.card_bij (fun c _ => (c.1 ^ (P * Q), fun j => root c.1 (c.2 j).1 (c.2 j).2.1 (c.2 j).2.2 ^ (P * Q))) ?_ ?_ ?_
  · rintro ⟨d, gs⟩ hc
    rw [Finset.mem_filter] at hc ⊢
    obtain ⟨-, hd, hsq, hT⟩ := hc
    refine ⟨Finset.mem_univ _, ?_, fun j => madeUp d (gs j), fun j => ?_, ?_⟩
    · have := sym_pow (p := P * Q) dvd_rfl d (P * Q)
      unfold sym at this
      rw [this, hd, hodd.neg_one_pow]
    · exact h.shown_madeUp hg hd (hsq j) _ _
    · rw [Units.val_pow_eq_pow_val]; exact hT
  · rintro ⟨d, gs⟩ hc ⟨d', gs'⟩ hc' he
    rw [Finset.mem_filter] at hc hc'
    simp only [Prod.mk.injEq] at he
    obtain rfl := pow_inj hinv he.1
    congr 1
    funext j
    have e1 := h.shown_madeUp hg hc.2.1 (hc.2.2.1 j) (gs j).2.1 (gs j).2.2
    have e2 := h.shown_madeUp hg hc'.2.1 (hc'.2.2.1 j) (gs' j).2.1 (gs' j).2.2
    rw [congrFun he.2 j, e2, Option.some.injEq] at e1
    exact (madeUp_inj hinv e1).symm
  · rintro ⟨w, ys⟩ hc
    rw [Finset.mem_filter] at hc
    obtain ⟨-, hw, r, hr, hT⟩ := hc
    have hd : sym (P * Q) (w ^ v.toNat) = -1 := by
      have h1 : sym (P * Q) ((w ^ v.toNat) ^ (P * Q)) = -1 := by rw [hinv]; exact hw
      rw [sym_pow dvd_rfl] at h1
      rcases sym_cases (p := P * Q) dvd_rfl (w ^ v.toNat) with h2 | h2
      · rw [h2, one_pow] at h1; norm_num at h1
      · exact h2
    choose g a b hsq hy using fun j => h.exists_madeUp hg hd (ys j)
    have hys : ys = fun j => root (w ^ v.toNat) (g j) (a j) (b j) ^ (P * Q) := funext hy
    refine ⟨(w ^ v.toNat, fun j => (g j, a j, b j)), ?_, ?_⟩
    · rw [Finset.mem_filter]
      refine ⟨Finset.mem_univ _, hd, hsq, ?_⟩
      have hr' : (fun j => madeUp (w ^ v.toNat) (g j, a j, b j)) = r := by
        funext j
        have e1 := h.shown_madeUp hg hd (hsq j) (a j) (b j)
        rw [hinv, ← hy j, hr j, Option.some.injEq] at e1
        exact e1.symm
      simp only [hr']
      rw [← Units.val_pow_eq_pow_val, hinv]
      exact hT
    · simp only [hinv, ← hys]

open Classical in
/-- C109: squares are drawn by squaring: every square is the square of exactly as many units. -/
theorem C109_squares {n : ℕ} [NeZero n] {g g' : (ZMod n)ˣ} (h : IsSquare g) (h' : IsSquare g') :
    (Finset.univ.filter fun u : (ZMod n)ˣ => u * u = g).card = (Finset.univ.filter fun u : (ZMod n)ˣ => u * u = g').card := by
  have key : ∀ g g' : (ZMod n)ˣ, IsSquare g → IsSquare g' →
      (Finset.univ.filter fun u : (ZMod n)ˣ => u * u = g).card ≤ (Finset.univ.filter fun u : (ZMod n)ˣ => u * u = g').card := by
    rintro g g' ⟨c, rfl⟩ ⟨c', rfl⟩
    refine Finset.card_le_card_of_injOn (fun u => u * c⁻¹ * c') ?_ ?_
    · intro u hu
      simp only [Finset.coe_filter, Finset.mem_univ, true_and, Set.mem_ofPred_eq] at hu ⊢
      rw [mul_mul_mul_comm, mul_mul_mul_comm u, hu, mul_mul_mul_comm c, mul_inv_cancel, one_mul, one_mul]
    · intro a _ b _ hab
      simpa using hab
  exact le_antisymm (key _ _ h h') (key _ _ h' h)

/-- C109: what is made up satisfies both equations of the verifier. -/
theorem C109_modulus_accepted {n : ℕ} (hodd : Odd n) (d : (ZMod n)ˣ) (g : (ZMod n)ˣ × Bool × Bool) :
    (madeUp d g).z ^ n = (madeUp d g).y ∧
      (madeUp d g).x ^ 4 = (if (madeUp d g).a then -1 else 1) * (if (madeUp d g).b then (d : ZMod n) ^ n else 1) * (madeUp d g).y := by
  obtain ⟨g, a, b⟩ := g
  unfold madeUp
  simp only
  refine ⟨(Units.val_pow_eq_pow_val _ _).symm, ?_⟩
  have : (g ^ n) ^ 4 = (if a then -1 else 1) * (if b then d ^ n else 1) * root d g a b ^ n := by
    rw [root_pow hodd]
    cases a <;> cases b <;> simp
  have h2 := congrArg (Units.val) this
  rw [Units.val_pow_eq_pow_val] at h2
  rw [h2]
  cases a <;> cases b <;> simp

theorem items_get {n p q w e : Int} {invN : Option Int} : ∀ {ys : List Int} {its : List Item}, items n p q w e invN ys = .ok its →
    ∀ (i : ℕ) (y : Int), ys[i]? = some y → ∃ it, its[i]? = some it ∧ item n p q w e invN y = .ok it
  | [], its, h, i, y, hi => by simp at hi
  | y :: ys, its, h, i, y', hi => by
    simp only [items] at h
    split at h
    · next it hit =>
      split at h
      · next r hr =>
        simp only [Res.ok.injEq] at h
        subst h
        cases i with
        | zero =>
          simp only [List.getElem?_cons_zero, Option.some.injEq] at hi ⊢
          subst hi
          exact ⟨it, rfl, hit⟩
        | succ i =>
          simp only [List.getElem?_cons_succ] at hi ⊢
          exact items_get hr i y' hi
      · cases h
      · cases h
    · cases h
    · cases h

/-- C109: a proof that the code returns consists of these iterations for its challenges, where they are units. -/
theorem C109_modulus_message (H : Bytes → Bytes) (session : Bytes) (w : (ZMod (P * Q))ˣ) (ys : List ℤ) (pf : Proof)
    (hy : genY H session ((w : ZMod (P * Q)).val : ℤ) ((P * Q : ℕ) : Int) Iterations [] = .ok ys)
    (h : proveWith H session ((P * Q : ℕ) : Int) P Q ((w : ZMod (P * Q)).val : ℤ) = .ok pf) (i : ℕ) (y : (ZMod (P * Q))ˣ)
    (hi : ys[i]? = some ((y : ZMod (P * Q)).val : ℤ)) (r : Round (P * Q)) (hr : shown P Q w y = some r) :
    pf.W = some ((w : ZMod (P * Q)).val : ℤ) ∧
    ∃ x z : ℤ, pf.X[i]? = some (some x) ∧ pf.Z[i]? = some (some z) ∧ r.x = x ∧ r.z = z ∧ r.y = y ∧
      (∃ A : ℕ, pf.A = some (A : ℤ) ∧ A.testBit i = r.a) ∧ (∃ B : ℕ, pf.B = some (B : ℤ) ∧ B.testBit i = r.b) := by
  unfold proveWith at h
  rw [hy] at h
  simp only at h
  split at h
  · cases h
  · split at h
    · next its hits =>
      simp only [Res.ok.injEq] at h
      subst h
      obtain ⟨it, h1, h2⟩ := items_get hits i _ hi
      unfold shown at hr
      rw [h2] at hr
      split at hr
      · next x z a b heq =>
        simp only [Res.ok.injEq] at heq
        subst heq
        simp only [Option.some.injEq] at hr
        subst hr
        obtain ⟨hlt, hget⟩ := List.getElem?_eq_some_iff.mp h1
        have tb : ∀ f : Item → Bool, (packBits (its.map f)).testBit i = f ⟨some x, some z, a, b⟩ := by
          intro f
          rw [packBits_testBit _ _ (by simpa using hlt), List.getD_eq_getElem _ _ (by simpa using hlt)]
          simp [hget]
        refine ⟨rfl, x, z, ?_, ?_, rfl, rfl, rfl, ⟨_, rfl, tb Item.a⟩, ⟨_, rfl, tb Item.b⟩⟩
        · simp [h1]
        · simp [h1]
      · cases hr
    · cases h
    · cases h

/-- Concrete: N = 77 = 7·11 is prime to 60, 2 has symbol −1, and the square 4 with bits (1, 0) gives an iteration with challenge z^77. -/
example : Blum 7 11 ∧ Int.gcd ((7 * 11 : ℕ) : Int) (phi 7 11) = 1 ∧ jacobiSym 2 (7 * 11) = -1 ∧
    ∃ d g : (ZMod 77)ˣ, (d : ZMod 77) = 2 ∧ (g : ZMod 77) = 4 ∧ IsSquare g ∧ (madeUp d (g, true, false)).z = 52 ∧
      (madeUp d (g, true, false)).x = 4 ^ 77 := by
  refine ⟨⟨by norm_num, by norm_num, by decide, rfl, rfl⟩, by decide, by norm_num, ZMod.unitOfCoprime 2 (by decide), ZMod.unitOfCoprime 4 (by decide),
    rfl, rfl, ⟨ZMod.unitOfCoprime 2 (by decide), by ext; decide⟩, ?_, ?_⟩
  · decide +kernel
  · unfold madeUp
    simp only [Units.val_pow_eq_pow_val]
    rfl

end Tss.ModProof
